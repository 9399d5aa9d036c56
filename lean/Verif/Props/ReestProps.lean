import Verif.Model.Reest
import Verif.Props.TplFitProps
import Mathlib.Tactic.NormNum
import Mathlib.Tactic.IntervalCases
import Mathlib.Algebra.Order.Ring.Rat

set_option linter.unusedVariables false
set_option linter.unusedSectionVars false
set_option linter.unusedSimpArgs false

/-! # C193-C195: continuum re-estimation and the independence of successive fits -/

namespace Amazed
namespace Reest

open SpcModel (St)

variable {K : Type} [Field K] [LinearOrder K] [IsStrictOrderedRing K] {R E : Type}

/-! ## Specification -/

/-- The members of a model that no fit changes. -/
def Fixed (a b : St K) : Prop := a.axis = b.axis ∧ a.spc = b.spc ∧ a.offsets = b.offsets

/-- Two lists of models with the same fixed members. -/
def SameData (l m : List (St K)) : Prop := List.Forall₂ Fixed l m

/-- The samples of `f` with the lines removed, `lines` being the model flux built on the continuum `c`, the lines counted `x` times. -/
def without (x : K) (f lines c : List K) : List K := List.zipWith (fun a b => a - b) f (List.zipWith (fun m k => (m - k) * x) lines c)

/-- One re-estimation of the first observation: `a` before, `b` after, `x` how many times the lines are removed. -/
def Step (env : Env K R E) (z : R) (e : E) (x : K) (a b : St K) : Prop :=
  ∃ m c, env.lines e 0 z a.cont = .ok m ∧ env.med 0 (without x a.spc m a.cont) = .ok c ∧
    b = { a with cont := c, model := c, noCont := List.zipWith (· - ·) a.spc c }

/-- `n` re-estimations from number `j`, each followed by a fit of the amplitudes; `xs j` is how many times the lines are removed. -/
inductive Steps (env : Env K R E) (i : Nat) (z : R) (xs : Nat → K) : Nat → Nat → E → List (St K) → E → List (St K) → Prop
  | done (j : Nat) (e : E) (ms : List (St K)) : Steps env i z xs 0 j e ms e ms
  | next (n j : Nat) (e e1 e2 : E) (a b : St K) (ss ms : List (St K)) (h : Step env z e (xs j) a b) (hf : env.hyb i z (b :: ss) = .ok e1)
      (r : Steps env i z xs n (j + 1) e1 (b :: ss) e2 ms) : Steps env i z xs (n + 1) j e (a :: ss) e2 ms

/-- How many times the lines are removed at iteration `j` of `n`. -/
def times (n j : Nat) : K := if 3 < n ∧ j ≤ 3 ∧ 2 * j < n then 2 - 33 / 100 * j else 1

/-! ## C193: the iterations -/

theorem times_pos (n j : Nat) : (0 : K) < times n j := by
  unfold times
  split
  · rename_i h
    obtain ⟨_, h, _⟩ := h
    have : (j : K) ≤ 3 := by exact_mod_cast h
    have h33 : (33 / 100 : K) * j ≤ 33 / 100 * 3 := mul_le_mul_of_nonneg_left this (by norm_num)
    have : (0 : K) < 2 - 33 / 100 * 3 := by norm_num
    calc (0 : K) < 2 - 33 / 100 * 3 := this
      _ ≤ 2 - 33 / 100 * j := sub_le_sub_left h33 2
  · exact zero_lt_one

theorem enhance_factor (n j : Nat) (l : List K) : enhance (factor n j) l = l.map (· * times n j) := by
  unfold enhance factor
  by_cases h : n > 2 * j ∧ n > 3 ∧ j ≤ 3
  · have ht : (times n j : K) = 2 - j * (33 / 100) := by
      unfold times
      rw [if_pos ⟨h.2.1, h.2.2, h.1⟩, mul_comm]
    rw [if_pos h, ← ht, if_pos (times_pos n j)]
  · have ht : (times n j : K) = 1 := by
      unfold times
      rw [if_neg fun hh => h ⟨hh.2.2, hh.1, hh.2.1⟩]
    rw [if_neg h, if_neg (lt_irrefl _), ht]
    simp

theorem reestOne_iff (env : Env K R E) (z : R) (e : E) (n j : Nat) (a b : St K) :
    reestOne env z e (factor n j) a = .ok b ↔ Step env z e (times n j) a b := by
  have key : ∀ m : List K, SpcModel.sub a.spc (enhance (factor n j) (SpcModel.sub m a.cont)) = without (times n j) a.spc m a.cont := by
    intro m
    rw [enhance_factor]
    unfold without SpcModel.sub
    rw [List.map_zipWith]
  unfold reestOne Step estimate
  constructor
  · intro h
    obtain ⟨m, hm, h⟩ := Res.bind_eq_ok.1 h
    obtain ⟨s1, h1, h⟩ := Res.bind_eq_ok.1 h
    obtain ⟨c, hc, h1⟩ := Res.bind_eq_ok.1 h1
    refine ⟨m, c, hm, ?_, ?_⟩
    · rw [← key m]; exact hc
    · have e1 := Res.ok.inj h1
      subst e1
      exact (Res.ok.inj h).symm
  · rintro ⟨m, c, hm, hc, rfl⟩
    rw [hm, Res.bind_ok]
    refine Res.bind_eq_ok.2 ⟨_, Res.bind_eq_ok.2 ⟨c, ?_, rfl⟩, rfl⟩
    rw [← key m] at hc
    exact hc

theorem loop_iff (env : Env K R E) (i : Nat) (z : R) (N : Nat) : ∀ (n it : Nat) (e : E) (ms : List (St K)) (e' : E) (ms' : List (St K)),
    loop env i z N n it (e, ms) = .ok (e', ms') ↔ Steps env i z (times N) n it e ms e' ms'
  | 0, it, e, ms, e', ms' => by
    constructor
    · intro h
      have h := Res.ok.inj h
      cases h
      exact .done it e ms
    · intro h
      cases h
      rfl
  | n + 1, it, e, ms, e', ms' => by
    constructor
    · intro h
      obtain ⟨ms1, h1, h⟩ := Res.bind_eq_ok.1 h
      obtain ⟨e1, h2, h⟩ := Res.bind_eq_ok.1 h
      cases ms with
      | nil => exact nomatch h1
      | cons a ss =>
        obtain ⟨b, hb, h1⟩ := Res.bind_eq_ok.1 h1
        have h1 := Res.ok.inj h1
        subst h1
        exact .next n it e e1 e' a b ss ms' ((reestOne_iff env z e N it a b).1 hb) h2 ((loop_iff env i z N n (it + 1) e1 _ e' ms').1 h)
    · intro h
      cases h with
      | next _ _ _ e1 _ a b ss _ h hf r =>
        refine Res.bind_eq_ok.2 ⟨b :: ss, Res.bind_eq_ok.2 ⟨b, (reestOne_iff env z e N it a b).2 h, rfl⟩, ?_⟩
        refine Res.bind_eq_ok.2 ⟨e1, hf, ?_⟩
        exact (loop_iff env i z N n (it + 1) e1 _ e' ms').2 r

/-- **C193.** A hybrid fit with `n` iterations is exactly: a fit of the amplitudes, then `n` times a re-estimation of the continuum of the first observation with the lines removed, followed by a new fit of the
amplitudes. With 3 iterations or fewer the lines are removed once; with more they are removed 2, 1.67, 1.34 and 1.01 times at the first four iterations, as long as the iteration is in the first half, then once. -/
theorem C193_reestimation (env : Env K R E) (i : Nat) (z : R) (n : Nat) (ms : List (St K)) (e : E) (ms' : List (St K)) :
    doFit env i z n ms = .ok (e, ms') ↔ ∃ e0, env.hyb i z ms = .ok e0 ∧ Steps env i z (times n) n 0 e0 ms e ms' := by
  unfold doFit
  constructor
  · intro h
    obtain ⟨e0, h0, h⟩ := Res.bind_eq_ok.1 h
    exact ⟨e0, h0, (loop_iff env i z n n 0 e0 ms e ms').1 h⟩
  · rintro ⟨e0, h0, h⟩
    exact Res.bind_eq_ok.2 ⟨e0, h0, (loop_iff env i z n n 0 e0 ms e ms').2 h⟩

theorem steps_inv {env : Env K R E} {i : Nat} {z : R} {xs : Nat → K} : ∀ {n j : Nat} {e : E} {ms : List (St K)} {e' : E} {ms' : List (St K)},
    Steps env i z xs n j e ms e' ms' → env.hyb i z ms = .ok e →
    env.hyb i z ms' = .ok e' ∧ ms'.tail = ms.tail ∧ ms'.length = ms.length ∧
    (∀ (a b : St K), ms.head? = some a → ms'.head? = some b → Fixed a b ∧ (0 < n → b.model = b.cont ∧ b.noCont = List.zipWith (· - ·) a.spc b.cont)) := by
  intro n j e ms e' ms' h
  induction h with
  | done j e ms =>
    intro h0
    refine ⟨h0, rfl, rfl, ?_⟩
    intro a b ha hb
    rw [ha] at hb
    cases hb
    exact ⟨⟨rfl, rfl, rfl⟩, fun h => absurd h (Nat.lt_irrefl _)⟩
  | next n j e e1 e2 a b ss ms h hf r ih =>
    intro _
    obtain ⟨g1, g2, g3, g4⟩ := ih hf
    obtain ⟨m, c, hm, hc, hb⟩ := h
    refine ⟨g1, g2, g3, ?_⟩
    intro a' b' ha hb'
    cases ha
    obtain ⟨⟨f1, f2, f3⟩, f4⟩ := g4 b b' rfl hb'
    have k1 : b.axis = a.axis := by rw [hb]
    have k2 : b.spc = a.spc := by rw [hb]
    have k3 : b.offsets = a.offsets := by rw [hb]
    refine ⟨⟨k1.symm.trans f1, k2.symm.trans f2, k3.symm.trans f3⟩, fun _ => ?_⟩
    cases n with
    | zero =>
      cases r
      cases hb'
      subst hb
      exact ⟨rfl, rfl⟩
    | succ n =>
      have := f4 (Nat.succ_pos n)
      rw [k2] at this
      exact this

/-- **C193, result.** When it ends, the amplitudes are those fitted with the last continuum, the flux the lines were fitted to is the observed flux minus that continuum, the observed flux is as before; the
other observations keep the continuum they had: only the first one is re-estimated. -/
theorem C193_result (env : Env K R E) (i : Nat) (z : R) (n : Nat) (ms : List (St K)) (e : E) (ms' : List (St K)) (h : doFit env i z n ms = .ok (e, ms')) :
    env.hyb i z ms' = .ok e ∧ ms'.tail = ms.tail ∧ ms'.length = ms.length ∧
    (∀ (a b : St K), ms.head? = some a → ms'.head? = some b → Fixed a b ∧ (0 < n → b.model = b.cont ∧ b.noCont = List.zipWith (· - ·) a.spc b.cont)) := by
  obtain ⟨e0, h0, h⟩ := (C193_reestimation env i z n ms e ms').1 h
  exact steps_inv h h0

theorem without_exact (f c : List K) (h : c.length = f.length) : without 1 f f c = c := by
  unfold without
  induction f generalizing c with
  | nil => cases c with
    | nil => rfl
    | cons _ _ => simp at h
  | cons x f ih =>
    cases c with
    | nil => simp at h
    | cons y c =>
      simp only [List.zipWith_cons_cons]
      rw [ih c (by simpa using h)]
      congr 1
      rw [mul_one, sub_sub_cancel]

/-- **C193, stability.** When the model reproduces the observed flux and the continuum is the one the estimator finds without the lines, up to three iterations change nothing. -/
theorem C193_stable_partial (env : Env K R E) (i : Nat) (z : R) (n : Nat) (hn : n ≤ 3) (a : St K) (ss : List (St K)) (e : E) (hf : env.hyb i z (a :: ss) = .ok e)
    (hl : env.lines e 0 z a.cont = .ok a.spc) (hlen : a.cont.length = a.spc.length) (hm : env.med 0 a.cont = .ok a.cont)
    (h1 : a.model = a.cont) (h2 : a.noCont = List.zipWith (· - ·) a.spc a.cont) :
    doFit env i z n (a :: ss) = .ok (e, a :: ss) := by
  refine (C193_reestimation env i z n _ e _).2 ⟨e, hf, ?_⟩
  have ht : ∀ j, (times n j : K) = 1 := by
    intro j
    unfold times
    rw [if_neg]
    rintro ⟨h, _⟩
    omega
  have key : ∀ (k j : Nat), Steps env i z (times n) k j e (a :: ss) e (a :: ss) := by
    intro k
    induction k with
    | zero => intro j; exact .done j e _
    | succ k ih =>
      intro j
      refine .next k j e e e a a ss _ ⟨a.spc, a.cont, hl, ?_, ?_⟩ hf (ih (j + 1))
      · rw [ht, without_exact _ _ hlen]; exact hm
      · cases a
        simp only at h1 h2
        subst h1 h2
        rfl
  exact key n 0

/-! ### A concrete line fit: three samples, a line on the second -/

/-- The continuum is the mean of the flux, the amplitude of the line is the flux left at the second sample. -/
def demo : Env ℚ ℚ ℚ where
  hyb := fun i _ ms => match ms with
    | [] => .throw .INTERNAL_ERROR
    | s :: _ => match s.noCont with
      | [_, b, _] => .ok (b / (i + 1))
      | _ => .ub
  lines := fun e _ _ c => match c with
    | [x, y, w] => .ok [x, y + e, w]
    | _ => .ub
  med := fun _ f => .ok (List.replicate f.length (f.sum / f.length))
  inp := fun _ => [1, 1, 1]
  tpl := fun k z _ => .ok [z, z + k, z]
  merit := fun _ _ _ ms => .ok ((ms.map fun s => (List.zipWith (fun a b : ℚ => (a - b) * (a - b)) s.spc s.model).sum).sum)
  skip := fun _ _ => false

/-- The observed flux has a line of flux 3 on a null continuum. -/
def demoSt : St ℚ := ⟨[1, 2, 3], [0, 3, 0], [0, 3, 0], [0, 0, 0], [0, 0, 0], false⟩

/-- The hypotheses of `C193_stable_partial` are met. -/
example : doFit demo 0 0 3 [demoSt] = .ok (3, [demoSt]) :=
  C193_stable_partial demo 0 0 3 (by decide) demoSt [] 3 (by decide +kernel) (by decide +kernel) rfl (by decide +kernel) rfl (by decide +kernel)

/-- **C193: an exact solution is not kept with more than three iterations.** Eight iterations (`onlyextrema`) move away from a model that reproduces the flux on the continuum the estimator itself finds. -/
theorem C193_overshoot_counterexample : doFit demo 0 0 8 [demoSt] ≠ .ok (3, [demoSt]) ∧ doFit demo 0 0 3 [demoSt] = .ok (3, [demoSt]) := by
  decide +kernel

/-! ## C194: one fit does not depend on those made before -/

theorem each_same (f : Nat → St K → Res (St K)) (hf : ∀ o a b, Fixed a b → f o a = f o b) :
    ∀ (o : Nat) (l m : List (St K)), SameData l m → each f o l = each f o m := by
  intro o l m h
  induction h generalizing o with
  | nil => rfl
  | @cons a b as bs h _ ih =>
    have e1 : each f o (a :: as) = (f o a >>= fun s' => each f (o + 1) as >>= fun r => .ok (s' :: r)) := rfl
    have e2 : each f o (b :: bs) = (f o b >>= fun s' => each f (o + 1) bs >>= fun r => .ok (s' :: r)) := rfl
    rw [e1, e2, hf o a b h, ih]

theorem prepare_same (env : Env K R E) (c : Comp) (hc : c ≠ .noContinuum) (k : Nat) (z : R) (l m : List (St K)) (h : SameData l m) :
    prepare env c k z l = prepare env c k z m := by
  cases c with
  | noContinuum => exact absurd rfl hc
  | fromSpectrum =>
    refine each_same _ ?_ 0 l m h
    rintro o a b ⟨h1, h2, h3⟩
    cases a; cases b
    simp only at h1 h2 h3
    subst h1 h2 h3
    rfl
  | tplFit =>
    refine each_same _ ?_ 0 l m h
    rintro o a b ⟨h1, h2, h3⟩
    cases a; cases b
    simp only at h1 h2 h3
    subst h1 h2 h3
    rfl

theorem fixed_refl (a : St K) : Fixed a a := ⟨rfl, rfl, rfl⟩
theorem sameData_refl (l : List (St K)) : SameData l l := List.forall₂_same.2 fun a _ => fixed_refl a
theorem sameData_symm {l m : List (St K)} (h : SameData l m) : SameData m l := by
  induction h with
  | nil => exact .nil
  | cons h _ ih => exact .cons ⟨h.1.symm, h.2.1.symm, h.2.2.symm⟩ ih
theorem sameData_trans {l m n : List (St K)} (h : SameData l m) : SameData m n → SameData l n := by
  induction h generalizing n with
  | nil => intro h; exact h
  | cons h _ ih => intro h2; cases h2 with
    | cons h3 h4 => exact .cons ⟨h.1.trans h3.1, h.2.1.trans h3.2.1, h.2.2.trans h3.2.2⟩ (ih h4)

theorem each_fixed (f : Nat → St K → Res (St K)) (hf : ∀ o a b, f o a = .ok b → Fixed a b) :
    ∀ (o : Nat) (l m : List (St K)), each f o l = .ok m → SameData l m
  | o, [], m, h => by cases h; exact .nil
  | o, a :: l, m, h => by
    obtain ⟨b, h1, h⟩ := Res.bind_eq_ok.1 h
    obtain ⟨r, h2, h⟩ := Res.bind_eq_ok.1 h
    cases h
    exact .cons (hf o a b h1) (each_fixed f hf (o + 1) l r h2)

theorem prepare_fixed (env : Env K R E) (c : Comp) (k : Nat) (z : R) (l m : List (St K)) (h : prepare env c k z l = .ok m) : SameData l m := by
  cases c with
  | noContinuum => cases h; exact sameData_refl _
  | fromSpectrum =>
    refine each_fixed _ ?_ 0 l m h
    intro o a b h
    cases h
    exact ⟨rfl, rfl, rfl⟩
  | tplFit =>
    refine each_fixed _ ?_ 0 l m h
    intro o a b h
    obtain ⟨t, _, h⟩ := Res.bind_eq_ok.1 h
    cases h
    exact ⟨rfl, rfl, rfl⟩

theorem doFit_fixed (env : Env K R E) (i : Nat) (z : R) (n : Nat) (ms : List (St K)) (e : E) (ms' : List (St K)) (h : doFit env i z n ms = .ok (e, ms')) : SameData ms ms' := by
  obtain ⟨_, h2, h3, h4⟩ := C193_result env i z n ms e ms' h
  cases ms with
  | nil => cases ms' with
    | nil => exact .nil
    | cons _ _ => simp at h3
  | cons a ss => cases ms' with
    | nil => simp at h3
    | cons b ss' =>
      have h2 : ss' = ss := h2
      subst h2
      exact .cons (h4 a b rfl rfl).1 (sameData_refl _)

theorem turn_fixed (env : Env K R E) (c : Comp) (n k : Nat) (z : R) (i : Nat) (p q : Option (Best K E) × List (St K)) (h : turn env c n k z i p = .ok q) : SameData p.2 q.2 := by
  unfold turn at h
  split at h
  · cases h; exact sameData_refl _
  · obtain ⟨r, h1, h⟩ := Res.bind_eq_ok.1 h
    obtain ⟨ms, h2, h⟩ := Res.bind_eq_ok.1 h
    obtain ⟨m, _, h⟩ := Res.bind_eq_ok.1 h
    have a1 := doFit_fixed env i z n p.2 r.1 r.2 h1
    have a2 : SameData r.2 ms := by
      refine each_fixed _ ?_ 0 _ _ h2
      intro o a b h
      obtain ⟨t, _, h⟩ := Res.bind_eq_ok.1 h
      cases h
      exact ⟨rfl, rfl, rfl⟩
    have a3 := sameData_trans a1 a2
    cases h
    dsimp only
    split
    · refine sameData_trans a3 ?_
      rw [SameData, List.forall₂_map_right_iff]
      exact List.forall₂_same.2 fun a _ => ⟨rfl, rfl, rfl⟩
    · exact a3

theorem foldN_rel {σ : Type} (P : σ → σ → Prop) (hr : ∀ s, P s s) (ht : ∀ a b c, P a b → P b c → P a c) (f : Nat → σ → Res σ) (hf : ∀ i a b, f i a = .ok b → P a b) :
    ∀ (n k : Nat) (s t : σ), Res.foldN f k n s = .ok t → P s t
  | 0, k, s, t, h => by cases h; exact hr _
  | n + 1, k, s, t, h => by
    obtain ⟨u, h1, h⟩ := Res.bind_eq_ok.1 h
    exact ht _ _ _ (hf k s u h1) (foldN_rel P hr ht f hf n (k + 1) u t h)

theorem fit_fixed (env : Env K R E) (c : Comp) (nc nr n : Nat) (z : R) (ms : List (St K)) (r : Option (Best K E) × List (St K)) (h : fit env c nc nr n z ms = .ok r) : SameData ms r.2 := by
  refine foldN_rel (fun (p q : Option (Best K E) × List (St K)) => SameData p.2 q.2) (fun p => sameData_refl _) (fun _ _ _ => sameData_trans) _ ?_ nc 0 (none, ms) r h
  intro k p q h
  obtain ⟨ms1, h1, h⟩ := Res.bind_eq_ok.1 h
  refine sameData_trans (prepare_fixed env c k z _ _ h1) ?_
  exact foldN_rel (fun (p q : Option (Best K E) × List (St K)) => SameData p.2 q.2) (fun p => sameData_refl _) (fun _ _ _ => sameData_trans) _ (fun i p q h => turn_fixed env c n k z i p q h) nr 0 (p.1, ms1) q h

theorem history_fixed (env : Env K R E) (c : Comp) (nc nr : Nat) : ∀ (l : List (R × Nat)) (ms ms' : List (St K)), history env c nc nr l ms = .ok ms' → SameData ms ms'
  | [], ms, ms', h => by cases h; exact sameData_refl _
  | q :: l, ms, ms', h => by
    obtain ⟨r, h1, h⟩ := Res.bind_eq_ok.1 h
    exact sameData_trans (fit_fixed env c nc nr q.2 q.1 ms r h1) (history_fixed env c nc nr l r.2 ms' h)

theorem fit_same (env : Env K R E) (c : Comp) (hc : c ≠ .noContinuum) (nc nr n : Nat) (hn : 0 < nc) (z : R) (l m : List (St K)) (h : SameData l m) :
    fit env c nc nr n z l = fit env c nc nr n z m := by
  cases nc with
  | zero => exact absurd hn (Nat.lt_irrefl _)
  | succ nc =>
    have e : ∀ x : List (St K), fit env c (nc + 1) nr n z x = ((prepare env c 0 z x >>= fun ms => ratios env c n nr 0 z (none, ms)) >>= fun s =>
      Res.foldN (fun k p => prepare env c k z p.2 >>= fun ms => ratios env c n nr k z (p.1, ms)) 1 nc s) := fun _ => rfl
    rw [e, e, prepare_same env c hc 0 z l m h]

/-- **C194.** With the continuum of the spectrum or of template fits, a fit gives the same best fit, and leaves the same models, whatever fits were made before, at any redshifts and with any numbers of
re-estimations. -/
theorem C194_independent_partial (env : Env K R E) (c : Comp) (hc : c ≠ .noContinuum) (nc nr : Nat) (hn : 0 < nc) (l : List (R × Nat)) (ms ms' : List (St K))
    (h : history env c nc nr l ms = .ok ms') (z : R) (n : Nat) : fit env c nc nr n z ms' = fit env c nc nr n z ms :=
  (fit_same env c hc nc nr n hn z _ _ (history_fixed env c nc nr l ms ms' h)).symm

/-- The models of observations `raw`, without continuum. -/
def NoCont (ms : List (St K)) : Prop := ∀ s ∈ ms, s.model = s.cont

theorem each_map_reinit (f : Nat → St K → Res (List K)) : ∀ (o : Nat) (l m : List (St K)), each (fun o s => f o s >>= fun x => .ok { s with model := x }) o l = .ok m →
    m.map SpcModel.reinit = l.map SpcModel.reinit
  | o, [], m, h => by cases h; rfl
  | o, a :: l, m, h => by
    obtain ⟨b, h1, h⟩ := Res.bind_eq_ok.1 h
    obtain ⟨r, h2, h⟩ := Res.bind_eq_ok.1 h
    obtain ⟨x, _, h1⟩ := Res.bind_eq_ok.1 h1
    cases h
    cases h1
    have := each_map_reinit f (o + 1) l r h2
    simp only [List.map_cons]
    rw [this]
    rfl

theorem reinit_id (ms : List (St K)) (h : NoCont ms) : ms.map SpcModel.reinit = ms := by
  induction ms with
  | nil => rfl
  | cons a l ih =>
    simp only [List.map_cons]
    rw [ih fun s hs => h s (List.mem_cons_of_mem _ hs)]
    have := h a (List.mem_cons_self ..)
    cases a
    simp only at this
    subst this
    rfl

theorem turn_noCont (env : Env K R E) (k : Nat) (z : R) (i : Nat) (p q : Option (Best K E) × List (St K)) (hm : NoCont p.2) (h : turn env .noContinuum 0 k z i p = .ok q) : q.2 = p.2 := by
  unfold turn at h
  split at h
  · cases h; rfl
  · obtain ⟨r, h1, h⟩ := Res.bind_eq_ok.1 h
    obtain ⟨ms, h2, h⟩ := Res.bind_eq_ok.1 h
    obtain ⟨m, _, h⟩ := Res.bind_eq_ok.1 h
    have hr : r.2 = p.2 := by
      obtain ⟨e0, _, h1⟩ := Res.bind_eq_ok.1 h1
      cases h1
      rfl
    have := each_map_reinit (fun o s => env.lines r.1 o z s.cont) 0 _ _ h2
    cases h
    dsimp only
    rw [if_pos rfl, this, hr, reinit_id _ hm]

theorem fit_noCont (env : Env K R E) (nc nr : Nat) (z : R) (ms : List (St K)) (hm : NoCont ms) (r : Option (Best K E) × List (St K)) (h : fit env .noContinuum nc nr 0 z ms = .ok r) : r.2 = ms := by
  have key := foldN_rel (fun (p q : Option (Best K E) × List (St K)) => NoCont p.2 → q.2 = p.2) (fun p _ => rfl) (fun a b c h1 h2 h => by
      have e1 := h1 h
      have : NoCont b.2 := by rw [e1]; exact h
      exact (h2 this).trans e1) _ ?_ nc 0 (none, ms) r h
  · exact key hm
  · intro k p q h hm
    obtain ⟨ms1, h1, h⟩ := Res.bind_eq_ok.1 h
    cases h1
    have key := foldN_rel (fun (p q : Option (Best K E) × List (St K)) => NoCont p.2 → q.2 = p.2) (fun p _ => rfl) (fun a b c h1 h2 h => by
      have e1 := h1 h
      have : NoCont b.2 := by rw [e1]; exact h
      exact (h2 this).trans e1) _ (fun i p q h hm => turn_noCont env k z i p q hm h) nr 0 _ q h
    exact key hm

/-- **C194, without continuum.** Without re-estimation the models are left as they were set by `setContinuumComponent`, by any history of fits. -/
theorem C194_noContinuum_partial (env : Env K R E) (nc nr : Nat) : ∀ (l : List (R × Nat)) (h0 : ∀ q ∈ l, q.2 = 0) (s0 : List (St K)) (raws conts : List (List K)) (ms ms' : List (St K)),
    ms = List.zipWith (fun (p : List K × List K) s => setComponent .noContinuum p.1 p.2 s) (raws.zip conts) s0 → history env .noContinuum nc nr l ms = .ok ms' → ms' = ms := by
  have key : ∀ (l : List (R × Nat)), (∀ q ∈ l, q.2 = 0) → ∀ (ms ms' : List (St K)), NoCont ms → history env .noContinuum nc nr l ms = .ok ms' → ms' = ms := by
    intro l
    induction l with
    | nil => intro _ ms ms' _ h; cases h; rfl
    | cons q l ih =>
      intro h0 ms ms' hm h
      obtain ⟨r, h1, h⟩ := Res.bind_eq_ok.1 h
      rw [h0 q (List.mem_cons_self ..)] at h1
      have e := fit_noCont env nc nr q.1 ms hm r h1
      rw [e] at h
      exact ih (fun p hp => h0 p (List.mem_cons_of_mem _ hp)) ms ms' hm h
  intro l h0 s0 raws conts ms ms' hms h
  refine key l h0 ms ms' ?_ h
  intro s hs
  rw [hms] at hs
  obtain ⟨i, hi, rfl⟩ := List.getElem_of_mem hs
  rw [List.getElem_zipWith]
  rfl

/-- **C194: the option `no`.** Then no stage re-estimates anything; `always` does it once in every stage, `onlyextrema` eight times on the fine grids and the reported candidates, never in the first
pass nor in the velocity fit. -/
theorem C194_stages (skip : Bool) (st : Stage) : iters .no skip st = 0 ∧ iters .always skip st = 1 ∧
    (0 < iters .onlyExtrema skip st ↔ st = .fine ∨ (st = .report ∧ skip = false)) := by
  cases st <;> cases skip <;> decide

/-- **C194: the start of a fit.** What the choice of the continuum component sets in the model of a spectrum of flux `raw` and continuum `cont`: the flux compared to the model is always
`raw`; with the continuum of the spectrum, the continuum and the spectrum without continuum add up to `raw`; without continuum the spectrum without continuum is `raw` itself and the model starts at zero, as it does
before the fit of a template. -/
theorem C194_component (raw cont : List K) (s : St K) :
    (∀ c, (setComponent c raw cont s).spc = raw ∧ (setComponent c raw cont s).model = (setComponent c raw cont s).cont) ∧
    (setComponent .fromSpectrum raw cont s).cont = cont ∧ (setComponent .noContinuum raw cont s).noCont = raw ∧
    (setComponent .fromSpectrum raw cont s).noCont = List.zipWith (· - ·) raw cont ∧
    (raw.length = cont.length → List.zipWith (· + ·) (setComponent .fromSpectrum raw cont s).noCont cont = raw) ∧
    ∀ c, c ≠ .fromSpectrum → (setComponent c raw cont s).cont.length = raw.length ∧ ∀ x ∈ (setComponent c raw cont s).cont, x = 0 := by
  refine ⟨fun c => by cases c <;> exact ⟨rfl, rfl⟩, rfl, rfl, rfl, ?_, fun c hc => ?_⟩
  · show raw.length = cont.length → List.zipWith (· + ·) (List.zipWith (· - ·) raw cont) cont = raw
    clear s
    induction raw generalizing cont with
    | nil => intro _; simp
    | cons a r ih =>
      cases cont with
      | nil => intro h; simp at h
      | cons b q =>
        intro h
        simp only [List.zipWith_cons_cons, List.length_cons, Nat.add_right_cancel_iff] at h ⊢
        rw [ih q h, sub_add_cancel]
  · cases c with
    | fromSpectrum => exact absurd rfl hc
    | noContinuum => exact ⟨List.length_replicate, fun x hx => List.eq_of_mem_replicate hx⟩
    | tplFit => exact ⟨List.length_replicate, fun x hx => List.eq_of_mem_replicate hx⟩

/-- **C194: not without continuum.** With `noContinuum` and `always` the fit at a redshift depends on the fits made before: the continuum re-estimated at one redshift is still there at the next. -/
theorem C194_leak_counterexample :
    (history demo .noContinuum 1 1 [(1, iters .always false .first)] [setComponent .noContinuum [0, 3, 6] [0, 0, 0] demoSt] >>= fun ms => fit demo .noContinuum 1 1 (iters .always false .first) 2 ms) ≠
      fit demo .noContinuum 1 1 (iters .always false .first) 2 [setComponent .noContinuum [0, 3, 6] [0, 0, 0] demoSt] := by
  decide +kernel

/-- A history with two fits, one re-estimated: the hypotheses of `C194_independent_partial` and `C194_noContinuum_partial` are met. -/
example : (history demo .fromSpectrum 1 2 [(1, 1), (2, 8)] [demoSt] >>= fun ms => .ok (decide (ms = [demoSt]))) = .ok false ∧
    (history demo .tplFit 3 2 [(1, 1), (2, 0)] [demoSt] >>= fun ms => .ok (decide (ms = [demoSt]))) = .ok false ∧
    history demo .noContinuum 1 2 [(1, 0), (2, 0)] [setComponent .noContinuum [0, 3, 6] [0, 0, 0] demoSt] = .ok [setComponent .noContinuum [0, 3, 6] [0, 0, 0] demoSt] := by
  decide +kernel

/-! ## C195: the line ratios of one fit are compared on equal terms -/

/-- Line ratio `i` tried alone on the models `ms` of continuum `k`, without re-estimation: amplitudes, model, merit. -/
def alone (env : Env K R E) (k : Nat) (z : R) (ms : List (St K)) (i : Nat) : Res (Best K E) :=
  env.hyb i z ms >>= fun e => refreshAll env e z ms >>= fun ms' => env.merit e i z ms' >>= fun m => .ok ⟨m, k, i, e, ms'⟩

theorem each_congr_reinit (f : Nat → List K → Res (List K)) : ∀ (o : Nat) (l m : List (St K)), l.map SpcModel.reinit = m.map SpcModel.reinit →
    each (fun o s => f o s.cont >>= fun x => .ok { s with model := x }) o l = each (fun o s => f o s.cont >>= fun x => .ok { s with model := x }) o m
  | o, [], m, h => by cases m with
    | nil => rfl
    | cons _ _ => simp at h
  | o, a :: l, m, h => by
    cases m with
    | nil => simp at h
    | cons b m =>
      simp only [List.map_cons, List.cons.injEq] at h
      have ih := each_congr_reinit f (o + 1) l m h.2
      have e1 : ∀ (a : St K) (l : List (St K)), each (fun o s => f o s.cont >>= fun x => .ok { s with model := x }) o (a :: l) = ((f o a.cont >>= fun x => .ok { a with model := x }) >>= fun s' =>
        each (fun o s => f o s.cont >>= fun x => .ok { s with model := x }) (o + 1) l >>= fun r => .ok (s' :: r)) := fun _ _ => rfl
      rw [e1, e1, ih]
      have h1 := h.1
      cases a; cases b
      simp only [SpcModel.reinit, St.mk.injEq] at h1
      obtain ⟨h1, h2, h3, h4, _, h5⟩ := h1
      subst h1 h2 h3 h4 h5
      rfl

/-- `b` is the best of the line ratios below `n` that are not skipped, each tried alone on `ms`; the first one among equals. -/
def BestOf (env : Env K R E) (k : Nat) (z : R) (ms : List (St K)) (n : Nat) (b : Option (Best K E)) : Prop :=
  (∀ i < n, env.skip i z = false → ∃ a, alone env k z ms i = .ok a ∧ ∃ b', b = some b' ∧ b'.merit ≤ a.merit) ∧
  (∀ b', b = some b' → b'.ratio < n ∧ env.skip b'.ratio z = false ∧ alone env k z ms b'.ratio = .ok b' ∧
    ∀ i < b'.ratio, env.skip i z = false → ∀ a, alone env k z ms i = .ok a → b'.merit < a.merit)

/-- **C195.** Without re-estimation, and for a fit of the amplitudes that does not read the flux of the previous model, the line ratio kept for a continuum is the best of the line ratios each tried alone on that continuum:
its order in the catalogue and the others do not count, except that the first of equal merits is kept. -/
theorem C195_ratios_partial (env : Env K R E) (hyb : ∀ i z (l m : List (St K)), l.map SpcModel.reinit = m.map SpcModel.reinit → env.hyb i z l = env.hyb i z m)
    (c : Comp) (nr k : Nat) (z : R) (ms : List (St K)) (b : Option (Best K E)) (ms' : List (St K)) (h : ratios env c 0 nr k z (none, ms) = .ok (b, ms')) :
    BestOf env k z ms nr b := by
  have key := TplFit.Res.foldN_inv_ok (fun j (p : Option (Best K E) × List (St K)) => p.2.map SpcModel.reinit = ms.map SpcModel.reinit ∧ BestOf env k z ms j p.1) nr 0 (none, ms) (b, ms')
    ⟨rfl, fun i hi => absurd hi (Nat.not_lt_zero _), fun b' hb => nomatch hb⟩ ?_ h
  · rw [Nat.zero_add] at key
    exact key.2
  · rintro i ⟨b0, m0⟩ ⟨b1, m1⟩ _ _ ⟨hm, h1, h2⟩ ht
    unfold turn at ht
    cases hs : env.skip i z with
    | true =>
      rw [hs, if_pos rfl] at ht
      cases ht
      refine ⟨hm, ?_, ?_⟩
      · intro j hj hjs
        rcases Nat.lt_or_eq_of_le (Nat.le_of_lt_succ hj) with hj | rfl
        · exact h1 j hj hjs
        · rw [hs] at hjs; exact nomatch hjs
      · intro b' hb
        obtain ⟨g1, g2⟩ := h2 b' hb
        exact ⟨Nat.lt_succ_of_lt g1, g2⟩
    | false =>
      rw [hs, if_neg (by decide)] at ht
      obtain ⟨q, hq, ht⟩ := Res.bind_eq_ok.1 ht
      obtain ⟨e, he, hq⟩ := Res.bind_eq_ok.1 hq
      have hq := Res.ok.inj hq
      subst hq
      obtain ⟨m2, hm2, ht⟩ := Res.bind_eq_ok.1 ht
      obtain ⟨mer, hmer, ht⟩ := Res.bind_eq_ok.1 ht
      have ha : alone env k z ms i = .ok ⟨mer, k, i, e, m2⟩ := by
        unfold alone
        rw [← hyb i z m0 ms hm, he, Res.bind_ok]
        have : refreshAll env e z ms = refreshAll env e z m0 := (each_congr_reinit (fun o c => env.lines e o z c) 0 m0 ms hm).symm
        rw [this, hm2, Res.bind_ok, hmer]
        rfl
      have ht := Res.ok.inj ht
      have hb1 : b1 = better b0 ⟨mer, k, i, e, m2⟩ := (congrArg Prod.fst ht).symm
      have hm1 : (if c = .noContinuum then m2.map SpcModel.reinit else m2) = m1 := congrArg Prod.snd ht
      have hr := each_map_reinit (fun o s => env.lines e o z s.cont) 0 _ _ hm2
      refine ⟨?_, ?_⟩
      · show m1.map SpcModel.reinit = ms.map SpcModel.reinit
        rw [← hm1, ← hm, ← hr]
        split
        · rw [List.map_map]; rfl
        · rfl
      · show BestOf env k z ms (i + 1) b1
        cases b0 with
        | none =>
          subst hb1
          have hall : ∀ j < i, env.skip j z = false → False := fun j hj hjs => by
            obtain ⟨_, _, _, h, _⟩ := h1 j hj hjs
            exact nomatch h
          refine ⟨?_, ?_⟩
          · intro j hj hjs
            rcases Nat.lt_or_eq_of_le (Nat.le_of_lt_succ hj) with hj | rfl
            · exact (hall j hj hjs).elim
            · exact ⟨_, ha, _, rfl, le_refl _⟩
          · intro b' hb
            cases hb
            exact ⟨Nat.lt_succ_self _, hs, ha, fun j hj hjs => (hall j hj hjs).elim⟩
        | some b0 =>
          have hb1 : b1 = if b0.merit > mer then some ⟨mer, k, i, e, m2⟩ else some b0 := hb1
          by_cases hlt : b0.merit > mer
          · rw [if_pos hlt] at hb1
            subst hb1
            have hle : ∀ j < i, env.skip j z = false → ∃ a, alone env k z ms j = .ok a ∧ mer < a.merit := fun j hj hjs => by
              obtain ⟨a, ga, b', gb, gl⟩ := h1 j hj hjs
              cases gb
              exact ⟨a, ga, lt_of_lt_of_le hlt gl⟩
            refine ⟨?_, ?_⟩
            · intro j hj hjs
              rcases Nat.lt_or_eq_of_le (Nat.le_of_lt_succ hj) with hj | rfl
              · obtain ⟨a, ga, gl⟩ := hle j hj hjs
                exact ⟨a, ga, _, rfl, le_of_lt gl⟩
              · exact ⟨_, ha, _, rfl, le_refl _⟩
            · intro b' hb
              cases hb
              refine ⟨Nat.lt_succ_self _, hs, ha, fun j hj hjs a ga => ?_⟩
              obtain ⟨a', ga', gl⟩ := hle j hj hjs
              rw [ga] at ga'
              cases ga'
              exact gl
          · rw [if_neg hlt] at hb1
            subst hb1
            refine ⟨?_, ?_⟩
            · intro j hj hjs
              rcases Nat.lt_or_eq_of_le (Nat.le_of_lt_succ hj) with hj | rfl
              · exact h1 j hj hjs
              · exact ⟨_, ha, _, rfl, not_lt.1 hlt⟩
            · intro b' hb
              obtain ⟨g1, g2⟩ := h2 b' hb
              exact ⟨Nat.lt_succ_of_lt g1, g2⟩

/-- The hypothesis on the fit of the amplitudes is met by `demo`, and the loop keeps the second of its two line ratios. -/
example : (∀ i z (l m : List (St ℚ)), l.map SpcModel.reinit = m.map SpcModel.reinit → demo.hyb i z l = demo.hyb i z m) ∧
    (ratios demo .fromSpectrum 0 2 0 0 (none, [⟨[1, 2, 3], [0, 1, 0], [0, 1, 0], [0, 0, 0], [0, 0, 0], false⟩]) >>= fun r => .ok (r.1.map fun b => (b.ratio, b.merit))) = .ok (some (0, 0)) := by
  refine ⟨?_, by decide +kernel⟩
  intro i z l m h
  cases l with
  | nil => cases m with
    | nil => rfl
    | cons _ _ => simp at h
  | cons a l => cases m with
    | nil => simp at h
    | cons b m =>
      simp only [List.map_cons, List.cons.injEq] at h
      have h0 := congrArg (fun s : St ℚ => s.noCont) h.1
      have h1 : a.noCont = b.noCont := h0
      show (match a.noCont with | [_, b, _] => Res.ok (b / (i + 1)) | _ => Res.ub) = match b.noCont with | [_, b, _] => Res.ok (b / (i + 1)) | _ => Res.ub
      rw [h1]

/-- `demo` where the first line ratio is skipped. -/
def demoSkip : Env ℚ ℚ ℚ := { demo with skip := fun i _ => i == 0 }

/-- **C195: not with re-estimation.** With one re-estimation the merit of the second line ratio depends on the first one, which has already moved the continuum: skipping the first line ratio, which is not kept, changes the
merit found for the second. -/
theorem C195_order_counterexample :
    (ratios demo .fromSpectrum 1 2 0 0 (none, [⟨[1, 2, 3], [0, 1, 6], [0, 1, 6], [0, 0, 0], [0, 0, 0], false⟩]) >>= fun r => .ok (r.1.map fun b => (b.ratio, b.merit))) = .ok (some (1, 305 / 16)) ∧
    (ratios demoSkip .fromSpectrum 1 2 0 0 (none, [⟨[1, 2, 3], [0, 1, 6], [0, 1, 6], [0, 0, 0], [0, 0, 0], false⟩]) >>= fun r => .ok (r.1.map fun b => (b.ratio, b.merit))) = .ok (some (1, 947 / 48)) := by
  decide +kernel

end Reest
end Amazed
