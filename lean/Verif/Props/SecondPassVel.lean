import Verif.Props.SecondPassWindow
import Verif.Props.TplFitTotal

set_option linter.unusedVariables false
set_option linter.unusedSectionVars false

/-! # C102, C103: the search of the velocities and the measurement of lines -/

namespace Amazed
namespace SecondPass
open LmResult

/-- A sequence of calls: `f` is called from the state `s` on each argument in turn; the results are the list, the last state `s'`. -/
inductive Run {σ α β : Type} (f : σ → α → Res (σ × β)) (s : σ) : List α → σ → List β → Prop
  | nil : Run f s [] s []
  | snoc {l : List α} {s1 : σ} {bs : List β} {a : α} {s2 : σ} {b : β} : Run f s l s1 bs → f s1 a = .ok (s2, b) →
      Run f s (l ++ [a]) s2 (bs ++ [b])

theorem Run.length {σ α β : Type} {f : σ → α → Res (σ × β)} {s s' : σ} {l : List α} {bs : List β} (h : Run f s l s' bs) :
    bs.length = l.length := by
  induction h with
  | nil => rfl
  | snoc _ _ ih => simp [ih]

section
variable {K : Type} [Field K] [LinearOrder K] [IsStrictOrderedRing K]

/-- `i` is the first index of the smallest merit `m` of a list where `none` is no merit. -/
def FirstMin (ms : List (Option K)) (i : Nat) (m : K) : Prop :=
  ms[i]? = some (some m) ∧ (∀ (j : Nat) (x : K), j < i → ms[j]? = some (some x) → m < x) ∧
    ∀ (j : Nat) (x : K), ms[j]? = some (some x) → m ≤ x

theorem FirstMin.keep {ms : List (Option K)} {i : Nat} {m : K} {o : Option K} (h : FirstMin ms i m) (ho : ∀ x, o = some x → m ≤ x) :
    FirstMin (ms ++ [o]) i m := by
  have hi : i < ms.length := (List.getElem?_eq_some_iff.1 h.1).1
  refine ⟨by rw [List.getElem?_append_left hi]; exact h.1, fun j x hj hx => ?_, fun j x hx => ?_⟩
  · rw [List.getElem?_append_left (by omega)] at hx
    exact h.2.1 j x hj hx
  · rcases Nat.lt_or_ge j ms.length with hj | hj
    · rw [List.getElem?_append_left hj] at hx
      exact h.2.2 j x hx
    · rw [List.getElem?_append_right hj, List.getElem?_singleton] at hx
      split at hx
      · exact ho x (Option.some.inj hx)
      · simp at hx

theorem FirstMin.new {ms : List (Option K)} {m : K} (h : ∀ (j : Nat) (x : K), ms[j]? = some (some x) → m < x) :
    FirstMin (ms ++ [some m]) ms.length m := by
  refine ⟨by simp, fun j x hj hx => ?_, fun j x hx => ?_⟩
  · rw [List.getElem?_append_left hj] at hx
    exact h j x hx
  · rcases Nat.lt_or_ge j ms.length with hj | hj
    · rw [List.getElem?_append_left hj] at hx
      exact (h j x hx).le
    · rw [List.getElem?_append_right hj, List.getElem?_singleton] at hx
      split at hx
      · exact (Option.some.inj (Option.some.inj hx)).le
      · simp at hx

/-! ## The velocities -/

theorem foldL_append {α σ : Type} (f : α → σ → Res σ) (l m : List α) : ∀ s, EltList.foldL f (l ++ m) s =
    (EltList.foldL f l s >>= fun s' => EltList.foldL f m s') := by
  induction l with
  | nil => intro s; rfl
  | cons a l ih =>
    intro s
    rw [List.cons_append]
    show (f a s >>= fun s' => EltList.foldL f (l ++ m) s') = ((f a s >>= fun s' => EltList.foldL f l s') >>= fun s' => EltList.foldL f m s')
    cases f a s with
    | ok s' => rw [Res.bind_ok, Res.bind_ok]; exact ih s'
    | throw e => rfl
    | ub => rfl

theorem foldL_map {α β σ : Type} (f : β → σ → Res σ) (g : α → β) (l : List α) : ∀ s, EltList.foldL f (l.map g) s =
    EltList.foldL (fun a => f (g a)) l s := by
  induction l with
  | nil => intro s; rfl
  | cons a l ih =>
    intro s
    rw [List.map_cons]
    unfold EltList.foldL
    cases f (g a) s with
    | ok s' => rw [Res.bind_ok, Res.bind_ok]; exact ih s'
    | throw e => rfl
    | ub => rfl

/-- All the pairs of a redshift and a velocity, redshift by redshift. -/
def pairs {α β : Type} (zs : List α) (vs : List β) : List (α × β) := zs.flatMap fun z => vs.map fun v => (z, v)

theorem foldL_pairs {α β σ : Type} (f : α → β → σ → Res σ) (vs : List β) (zs : List α) : ∀ s,
    EltList.foldL (fun z => EltList.foldL (f z) vs) zs s = EltList.foldL (fun p => f p.1 p.2) (pairs zs vs) s := by
  induction zs with
  | nil => intro s; rfl
  | cons z zs ih =>
    intro s
    have : pairs (z :: zs) vs = (vs.map fun v => (z, v)) ++ pairs zs vs := rfl
    rw [this, foldL_append, foldL_map]
    rw [show EltList.foldL (fun z => EltList.foldL (f z) vs) (z :: zs) s = (EltList.foldL (f z) vs s >>= fun s' =>
      EltList.foldL (fun z => EltList.foldL (f z) vs) zs s') from rfl]
    cases EltList.foldL (f z) vs s with
    | ok s' => rw [Res.bind_ok, Res.bind_ok]; exact ih s'
    | throw e => rfl
    | ub => rfl

/-- One call of the search of a velocity: set the velocity, fit at the redshift. -/
def tryVel {σ : Type} (ops : VelOps σ K) (fitV : σ → K → Res (σ × Option K)) (s : σ) (p : K × K) : Res (σ × Option K) :=
  fitV (ops.set p.2 s) p.1

/-- What the search retains of the tests done so far: nothing without a merit, else the first test of smallest merit. -/
def BestOf (ps : List (K × K)) (ms : List (Option K)) (b : VelBest K) : Prop :=
  (b = ⟨none, none, none⟩ ∧ ∀ m ∈ ms, m = none) ∨
  ∃ (i : Nat) (z v m : K), ps[i]? = some (z, v) ∧ FirstMin ms i m ∧ b = ⟨some m, some v, some z⟩

theorem getElem?_append_some {α : Type} {l m : List α} {i : Nat} {x : α} (h : l[i]? = some x) : (l ++ m)[i]? = some x := by
  rw [List.getElem?_append_left (List.getElem?_eq_some_iff.1 h).1]; exact h

theorem BestOf.step {ps : List (K × K)} {ms : List (Option K)} {b : VelBest K} {z v : K} {o : Option K} (hl : ms.length = ps.length)
    (h : BestOf ps ms b) : BestOf (ps ++ [(z, v)]) (ms ++ [o]) (match o with
      | none => b
      | some m => match b.merit with
        | none => ⟨some m, some v, some z⟩
        | some c => if m < c then ⟨some m, some v, some z⟩ else b) := by
  rcases h with ⟨rfl, hn⟩ | ⟨i, z', v', m, h1, h2, rfl⟩
  · cases o with
    | none => exact .inl ⟨rfl, fun m hm => by rcases List.mem_append.1 hm with h | h; exacts [hn m h, List.mem_singleton.1 h]⟩
    | some m =>
      refine .inr ⟨ms.length, z, v, m, by rw [hl]; simp, FirstMin.new (fun j x hx => ?_), rfl⟩
      exact absurd (hn _ (List.mem_of_getElem? hx)) (by simp)
  · cases o with
    | none => exact .inr ⟨i, z', v', m, getElem?_append_some h1, h2.keep (by simp), rfl⟩
    | some x =>
      simp only
      split
      · rename_i hlt
        exact .inr ⟨ms.length, z, v, x, by rw [hl]; simp, FirstMin.new (fun j y hy => lt_of_lt_of_le hlt (h2.2.2 j y hy)), rfl⟩
      · rename_i hlt
        exact .inr ⟨i, z', v', m, getElem?_append_some h1, h2.keep (fun y hy => by
          obtain rfl := Option.some.inj hy; exact not_lt.1 hlt), rfl⟩

/-- **C102, search.** Every redshift is tested with every velocity, in order, each test starting from the state left by the one before. The
velocity retained is that of the first test of smallest merit, and the model is left with it; when no test has a merit nothing is retained
and the model is left as after the last test. (`hget`: after a fit the model has the velocity that was set.) -/
theorem C102_search {σ : Type} (ops : VelOps σ K) (fitV : σ → K → Res (σ × Option K)) (zs vs : List K) (st st' : σ) (b : VelBest K)
    (hget : ∀ s z v s' m, fitV (ops.set v s) z = .ok (s', m) → ops.get s' = some v)
    (h : velSearch ops fitV zs vs st = .ok (st', b)) :
    ∃ (s : σ) (ms : List (Option K)), Run (tryVel ops fitV) st (pairs zs vs) s ms ∧ BestOf (pairs zs vs) ms b ∧
      st' = (b.v.map fun v => ops.set v s).getD s := by
  unfold velSearch at h
  rw [foldL_pairs (fun z v => velTest ops fitV z v), Res.bind_eq_ok] at h
  obtain ⟨x, hx, h⟩ := h
  obtain ⟨ms, h1, h2⟩ := SvdFit.foldL_ok (f := fun (p : K × K) (x : σ × VelBest K) => velTest ops fitV p.1 p.2 x)
    (P := fun (pre : List (K × K)) (x : σ × VelBest K) => ∃ ms : List (Option K), Run (tryVel ops fitV) st pre x.1 ms ∧ BestOf pre ms x.2)
    (pairs zs vs) [] (st, ⟨none, none, none⟩) x ⟨[], .nil, .inl ⟨rfl, by simp⟩⟩
    (by
      rintro pre ⟨z, v⟩ y y' _ ⟨ms, hr, hb⟩ hstep
      unfold velTest at hstep
      rw [Res.bind_eq_ok] at hstep
      obtain ⟨o, ho, hstep⟩ := hstep
      obtain rfl := Res.ok.inj hstep
      refine ⟨ms ++ [o.2], hr.snoc ho, ?_⟩
      have := hb.step (z := z) (v := v) (o := o.2) hr.length
      simp only
      rw [hget _ _ _ _ _ ho]
      exact this)
    hx
  simp only [List.nil_append] at h1 h2
  refine ⟨x.1, ms, h1, ?_⟩
  obtain ⟨s, c⟩ := x
  simp only at h h1 h2
  cases hv : c.v with
  | none =>
    rw [hv] at h
    simp only [Res.ok.injEq, Prod.mk.injEq] at h
    obtain ⟨rfl, rfl⟩ := h
    exact ⟨h2, by simp [hv]⟩
  | some v =>
    rw [hv] at h
    simp only [Res.ok.injEq, Prod.mk.injEq] at h
    obtain ⟨rfl, rfl⟩ := h
    exact ⟨h2, by simp [hv]⟩

/-- **C102.** When the model has no line of the type (the getter gives no number), no velocity is retained: the model is left with the
velocity of the last test. -/
theorem C102_no_line {σ : Type} (ops : VelOps σ K) (fitV : σ → K → Res (σ × Option K)) (zs vs : List K) (st st' : σ) (b : VelBest K)
    (hget : ∀ s z v s' m, fitV (ops.set v s) z = .ok (s', m) → ops.get s' = none)
    (h : velSearch ops fitV zs vs st = .ok (st', b)) :
    b.v = none ∧ ∃ ms : List (Option K), Run (tryVel ops fitV) st (pairs zs vs) st' ms := by
  unfold velSearch at h
  rw [foldL_pairs (fun z v => velTest ops fitV z v), Res.bind_eq_ok] at h
  obtain ⟨x, hx, h⟩ := h
  obtain ⟨ms, h1, h2⟩ := SvdFit.foldL_ok (f := fun (p : K × K) (x : σ × VelBest K) => velTest ops fitV p.1 p.2 x)
    (P := fun (pre : List (K × K)) (x : σ × VelBest K) => ∃ ms : List (Option K), Run (tryVel ops fitV) st pre x.1 ms ∧ x.2.v = none)
    (pairs zs vs) [] (st, ⟨none, none, none⟩) x ⟨[], .nil, rfl⟩
    (by
      rintro pre ⟨z, v⟩ y y' _ ⟨ms, hr, hb⟩ hstep
      unfold velTest at hstep
      rw [Res.bind_eq_ok] at hstep
      obtain ⟨o, ho, hstep⟩ := hstep
      obtain rfl := Res.ok.inj hstep
      refine ⟨ms ++ [o.2], hr.snoc ho, ?_⟩
      simp only
      rw [hget _ _ _ _ _ ho]
      split
      · exact hb
      · split
        · rfl
        · split
          · rfl
          · exact hb)
    hx
  rw [h2] at h
  obtain rfl := Res.ok.inj h
  exact ⟨h2, ms, by simpa using h1⟩

/-- **C102, velocities.** The velocities tested start at the lower limit and go by the step while a whole step is left before the upper
limit: the upper limit itself is never tested, and an interval shorter than the step gives no test at all. -/
theorem C102_grid [FloorRing K] (vInf vSup vStep : K) (hs : 0 < vStep) (hl : vInf ≤ vSup) :
    ∃ l, velGrid vInf vSup vStep = .ok l ∧
      (∀ v, v ∈ l ↔ ∃ i : Nat, v = vInf + (i : K) * vStep ∧ v + vStep ≤ vSup) ∧ l.Pairwise (· < ·) := by
  unfold velGrid
  rw [if_neg (ne_of_gt hs)]
  refine ⟨_, rfl, ?_, ?_⟩
  · intro v
    have h0 : 0 ≤ (vSup - vInf) / vStep := div_nonneg (by linarith) hs.le
    simp only [List.mem_map, List.mem_range]
    have key : ∀ i : Nat, i < (truncZ ((vSup - vInf) / vStep)).toNat ↔ vInf + (i : K) * vStep + vStep ≤ vSup := by
      intro i
      have e : truncZ ((vSup - vInf) / vStep) = ⌊(vSup - vInf) / vStep⌋ := by
        unfold truncZ
        rw [if_pos h0]
      rw [e]
      have : i < (⌊(vSup - vInf) / vStep⌋).toNat ↔ ((i : ℤ) + 1) ≤ ⌊(vSup - vInf) / vStep⌋ := by omega
      rw [this, Int.le_floor, le_div_iff₀ hs]
      push_cast
      constructor <;> intro h <;> linarith
    constructor
    · rintro ⟨i, hi, rfl⟩
      exact ⟨i, rfl, (key i).1 hi⟩
    · rintro ⟨i, rfl, hi⟩
      exact ⟨i, (key i).2 hi, rfl⟩
  · rw [List.pairwise_map]
    refine List.pairwise_lt_range.imp ?_
    intro a b hab
    have : (a : K) < (b : K) := by exact_mod_cast hab
    nlinarith

/-- **C102, redshifts.** The redshifts tested are those of the candidate's window at most six steps of the refined grid from the
candidate; the candidate itself is one of them when it is in its window. -/
theorem C102_redshifts (redshifts win : List K) (zidx : Nat) (f b : K) (hs : redshifts.Pairwise (· < ·)) (hf : win.head? = some f)
    (hb : win.getLast? = some b) (hfm : f ∈ redshifts) (hbm : b ∈ redshifts) (hz : zidx < redshifts.length) :
    ∃ rg zs, velRange redshifts win zidx = .ok rg ∧ velZs redshifts rg.1 rg.2 = .ok zs ∧ zs <:+: redshifts ∧
      (∀ x, x ∈ zs ↔ ∃ i : Nat, redshifts[i]? = some x ∧ f ≤ x ∧ x ≤ b ∧ i ≤ zidx + 6 ∧ zidx ≤ i + 6) := by
  obtain ⟨ib, hib⟩ := getIndex_mem redshifts f hfm
  obtain ⟨ie, hie⟩ := getIndex_mem redshifts b hbm
  have gib := getIndex_ok hib
  have gie := getIndex_ok hie
  obtain ⟨lib, vib⟩ := List.getElem?_eq_some_iff.1 gib
  obtain ⟨lie, vie⟩ := List.getElem?_eq_some_iff.1 gie
  have hs2 : redshifts.Pairwise (· ≤ ·) := hs.imp le_of_lt
  have lo_iff : ∀ (i : Nat) (x : K), redshifts[i]? = some x → (f ≤ x ↔ ib ≤ i) := by
    intro i x hx
    obtain ⟨li, vi⟩ := List.getElem?_eq_some_iff.1 hx
    constructor
    · intro h
      by_contra hc
      have := (List.pairwise_iff_getElem.1 hs) i ib li lib (by omega)
      rw [vi, vib] at this
      exact absurd h (not_le.2 this)
    · intro h
      have := getElem_le_of_le hs2 h li
      rw [vi, vib] at this
      exact this
  have hi_iff : ∀ (i : Nat) (x : K), redshifts[i]? = some x → (x ≤ b ↔ i ≤ ie) := by
    intro i x hx
    obtain ⟨li, vi⟩ := List.getElem?_eq_some_iff.1 hx
    constructor
    · intro h
      by_contra hc
      have := (List.pairwise_iff_getElem.1 hs) ie i lie li (by omega)
      rw [vi, vie] at this
      exact absurd h (not_le.2 this)
    · intro h
      have := getElem_le_of_le hs2 h lie
      rw [vi, vie] at this
      exact this
  have hrg : velRange redshifts win zidx = .ok (max (ib : Int) (zidx - 6), min (ie : Int) (zidx + 6)) := by
    unfold velRange
    rw [head_at hf, Res.bind_ok, last_at hb, Res.bind_ok, hib, Res.bind_ok, hie, Res.bind_ok]
  set lo : Int := max (ib : Int) (zidx - 6) with hlo
  set hi : Int := min (ie : Int) (zidx + 6) with hhi
  have hlo0 : 0 ≤ lo := by omega
  have hhil : hi < redshifts.length := by omega
  have hin : ∀ i : Nat, i < (hi - lo + 1).toNat → lo.toNat + i < redshifts.length := by
    intro i hi'
    clear_value lo hi
    omega
  have hget : ∀ (i : Nat) (h : i < (hi - lo + 1).toNat), Res.atZ redshifts (lo + (i : Int)) = .ok (redshifts[lo.toNat + i]'(hin i h)) := by
    intro i hi'
    have e : (lo + (i : Int)).toNat = lo.toNat + i := by clear_value lo hi; omega
    unfold Res.atZ
    rw [if_neg (by clear_value lo hi; omega), e]
    exact Res.at_of_lt (hin i hi')
  obtain ⟨zs, hzs⟩ := TplFit.Res.tab_total (g := fun (i : Nat) => Res.atZ redshifts (lo + (i : Int))) (hi - lo + 1).toNat
    (fun i hi' => ⟨_, hget i hi'⟩)
  have hlen := Res.tab_length _ hzs
  have hval : ∀ (i : Nat) (h : i < (hi - lo + 1).toNat), zs[i]? = some (redshifts[lo.toNat + i]'(hin i h)) := by
    intro i hi'
    obtain ⟨a, h1, h2⟩ := Res.tab_get _ hzs i hi'
    rw [hget i hi'] at h2
    rw [h1, Res.ok.inj h2]
  refine ⟨(lo, hi), zs, hrg, hzs, ?_, ?_⟩
  · have : zs = (redshifts.drop lo.toNat).take (hi - lo + 1).toNat := by
      refine List.ext_getElem? fun i => ?_
      by_cases hi' : i < (hi - lo + 1).toNat
      · rw [hval i hi', List.getElem?_take_of_lt hi', List.getElem?_drop, List.getElem?_eq_getElem]
      · rw [List.getElem?_eq_none (by omega), List.getElem?_eq_none (by rw [List.length_take]; omega)]
    rw [this]
    exact (List.take_prefix _ _).isInfix.trans (List.drop_suffix _ _).isInfix
  · intro x
    constructor
    · intro hx
      obtain ⟨i, hi', rfl⟩ := List.getElem_of_mem hx
      have h1 := hval i (by omega)
      rw [List.getElem?_eq_getElem hi'] at h1
      have h2 := Option.some.inj h1
      have h3 : redshifts[lo.toNat + i]? = some zs[i] := by rw [h2]; exact List.getElem?_eq_getElem _
      exact ⟨lo.toNat + i, h3, (lo_iff _ _ h3).2 (by omega), (hi_iff _ _ h3).2 (by omega), by omega, by omega⟩
    · rintro ⟨i, hx, h1, h2, h3, h4⟩
      have g1 := (lo_iff i x hx).1 h1
      have g2 := (hi_iff i x hx).1 h2
      have := hval (i - lo.toNat) (by omega)
      have e : lo.toNat + (i - lo.toNat) = i := by omega
      simp only [e] at this
      rw [← (List.getElem?_eq_some_iff.1 hx).2]
      exact List.mem_of_getElem? this

/-- **C102.** The fit of the velocities of a candidate: absorption first, then emission with the absorption velocity found. Its velocities
become those of the best tests, or stay when no test has a merit; the merit stored at the candidate is the best merit found, and the merits
of the other redshifts do not change. -/
theorem C102_fit_velocity [FloorRing K] {σ : Type} (opsA opsE : VelOps σ K) (fitV : σ → K → Res (σ × Option K)) (ga ge : K × K × K)
    (redshifts : List K) (chi2 chi2' : List (Option K)) (zidx : Nat) (c c' : Cand K) (st st' : σ)
    (hA : ∀ s z v s' m, fitV (opsA.set v s) z = .ok (s', m) → opsA.get s' = some v)
    (hE : ∀ s z v s' m, fitV (opsE.set v s) z = .ok (s', m) → opsE.get s' = some v)
    (h : fitVelocity opsA opsE fitV ga ge redshifts chi2 zidx c st = .ok (st', chi2', c')) :
    ∃ (zs va ve : List K) (ba be : VelBest K) (sA sE : σ) (msA msE : List (Option K)),
      velGrid ga.1 ga.2.1 ga.2.2 = .ok va ∧ velGrid ge.1 ge.2.1 ge.2.2 = .ok ve ∧
      (∃ rg, velRange redshifts c.win zidx = .ok rg ∧ velZs redshifts rg.1 rg.2 = .ok zs) ∧
      Run (tryVel opsA fitV) st (pairs zs va) sA msA ∧ BestOf (pairs zs va) msA ba ∧
      Run (tryVel opsE fitV) ((ba.v.map fun v => opsA.set v sA).getD sA) (pairs zs ve) sE msE ∧ BestOf (pairs zs ve) msE be ∧
      st' = (be.v.map fun v => opsE.set v sE).getD sE ∧
      c' = { c with alv := ba.v.getD c.alv, elv := be.v.getD c.elv } ∧
      chi2'.length = chi2.length ∧ (∀ i : Nat, i ≠ zidx → chi2'[i]? = chi2[i]?) ∧
      (be.v ≠ none → chi2'[zidx]? = some be.merit) ∧
      (be.v = none → ba.v ≠ none → chi2'[zidx]? = some ba.merit) ∧
      (be.v = none → ba.v = none → chi2' = chi2) := by
  unfold fitVelocity at h
  simp only [Res.bind_eq_ok] at h
  obtain ⟨rg, hrg, zs, hzs, va, hva, ⟨s1, ba⟩, hxa, ve, hve, ⟨s2, be⟩, hxe, ca, hca, ce, hce, h⟩ := h
  simp only [Res.ok.injEq, Prod.mk.injEq] at h hca hce hxe
  obtain ⟨rfl, rfl, rfl⟩ := h
  obtain ⟨sA, msA, rA, bA, eA⟩ := C102_search opsA fitV zs va st s1 ba hA hxa
  obtain ⟨sE, msE, rE, bE, eE⟩ := C102_search opsE fitV zs ve s1 s2 be hE hxe
  subst eA
  have fa : ca.length = chi2.length ∧ (∀ i : Nat, i ≠ zidx → ca[i]? = chi2[i]?) ∧ (ba.v ≠ none → ca[zidx]? = some ba.merit) ∧
      (ba.v = none → ca = chi2) := by
    cases hv : ba.v with
    | none =>
      rw [hv] at hca
      obtain rfl := Res.ok.inj hca
      exact ⟨rfl, fun _ _ => rfl, fun h => absurd rfl h, fun _ => rfl⟩
    | some v =>
      rw [hv] at hca
      obtain ⟨g1, g2⟩ := setElt_frame hca none
      exact ⟨g1.1, g1.2, fun _ => g2, fun h => by simp at h⟩
  have fe : ce.length = ca.length ∧ (∀ i : Nat, i ≠ zidx → ce[i]? = ca[i]?) ∧ (be.v ≠ none → ce[zidx]? = some be.merit) ∧
      (be.v = none → ce = ca) := by
    cases hv : be.v with
    | none =>
      rw [hv] at hce
      obtain rfl := Res.ok.inj hce
      exact ⟨rfl, fun _ _ => rfl, fun h => absurd rfl h, fun _ => rfl⟩
    | some v =>
      rw [hv] at hce
      obtain ⟨g1, g2⟩ := setElt_frame hce none
      exact ⟨g1.1, g1.2, fun _ => g2, fun h => by simp at h⟩
  refine ⟨zs, va, ve, ba, be, sA, sE, msA, msE, hva, hve, ⟨rg, hrg, hzs⟩, rA, bA, rE, bE, eE, rfl, fe.1.trans fa.1,
    fun i hi => (fe.2.1 i hi).trans (fa.2.1 i hi), fe.2.2.1, fun h1 h2 => ?_, fun h1 h2 => ?_⟩
  · rw [fe.2.2.2 h1]; exact fa.2.2.1 h2
  · rw [fe.2.2.2 h1, fa.2.2.2 h2]

/-- A model whose state is the pair of velocities; the merit is `(z - 3)² + (v_a - 20)² + (v_e - 30)²`. -/
def exVel : (ℚ × ℚ) → ℚ → Res ((ℚ × ℚ) × Option ℚ) :=
  fun s z => .ok (s, some ((z - 3) * (z - 3) + (s.1 - 20) * (s.1 - 20) + (s.2 - 30) * (s.2 - 30)))

def exA : VelOps (ℚ × ℚ) ℚ := ⟨fun v s => (v, s.2), fun s => some s.1⟩

def exE : VelOps (ℚ × ℚ) ℚ := ⟨fun v s => (s.1, v), fun s => some s.2⟩

/-- **C102.** The merit stored at the candidate can be that of another redshift: here the candidate is at 1 and its own best merit is 104,
but 100 is stored, which is found at 3. (The second pass computes the merit again, see C101.) -/
theorem C102_merit_elsewhere : ∃ st' chi2' c', fitVelocity exA exE exVel (10, 40, 10) (10, 31, 10) [0, 1, 2, 3] [none, none, none, none] 1
      ⟨1, [0, 1, 2, 3], 0, 0⟩ (0, 0) = .ok (st', chi2', c') ∧ c'.alv = 20 ∧ c'.elv = 20 ∧ st' = (20, 20) ∧
      chi2' = [none, some 100, none, none] ∧ exVel st' 1 = .ok (st', some 104) :=
  ⟨(20, 20), [none, some 100, none, none], ⟨1, [0, 1, 2, 3], 20, 20⟩, by decide +kernel, rfl, rfl, rfl, rfl, by decide +kernel⟩

example := C102_fit_velocity exA exE exVel (10, 40, 10) (10, 31, 10) [0, 1, 2, 3] [none, none, none, none] [none, some 100, none, none] 1
  ⟨1, [0, 1, 2, 3], 0, 0⟩ ⟨1, [0, 1, 2, 3], 20, 20⟩ (0, 0) (20, 20)
  (fun s z v s' m h => by simp only [exVel, exA, Res.ok.injEq, Prod.mk.injEq] at h ⊢; rw [← h.1])
  (fun s z v s' m h => by simp only [exVel, exE, Res.ok.injEq, Prod.mk.injEq] at h ⊢; rw [← h.1]) (by decide +kernel)

/-- The limits 10 and 40 with a step of 10 give 10, 20 and 30. -/
example : velGrid (10 : ℚ) 40 10 = .ok [10, 20, 30] ∧ velGrid (10 : ℚ) 39 10 = .ok [10, 20] ∧ velGrid (10 : ℚ) 15 10 = .ok [] := by
  decide +kernel

example := C102_redshifts ([0, 1, 2, 3] : List ℚ) [1, 2, 3] 2 1 3 (by decide +kernel) rfl rfl (by simp) (by simp) (by simp)

/-! ## The measurement of lines -/

/-- **C103.** The measurement refuses the fit of velocities with any method but `lbfgsb` and polynomial degrees out of 0..2. Otherwise every
redshift is fitted once, in order, and the redshift and the solution returned are those of the first fit of lowest score; without any score
there is no redshift (NaN) and the default solution. It fails only if a fit fails. -/
theorem C103_line_measurement {σ S : Type} (velocityFit lbfgsb : Bool) (degree : Int) (fitZ : σ → K → Res (σ × Option K × S))
    (grid : List K) (st : σ) :
    ((velocityFit = true ∧ lbfgsb = false) ∨ degree < 0 ∨ 2 < degree →
      lineMeas velocityFit lbfgsb degree fitZ grid st = .throw .INVALID_PARAMETER) ∧
    (∀ bz bs, lineMeas velocityFit lbfgsb degree fitZ grid st = .ok (bz, bs) →
      ∃ (s' : σ) (outs : List (Option K × S)), Run fitZ st grid s' outs ∧
        ((bz = none ∧ bs = none ∧ ∀ o ∈ outs, o.1 = none) ∨
         ∃ (i : Nat) (z m : K) (sol : S), grid[i]? = some z ∧ outs[i]? = some (some m, sol) ∧ FirstMin (outs.map (·.1)) i m ∧
           bz = some z ∧ bs = some sol)) ∧
    ((velocityFit = false ∨ lbfgsb = true) → 0 ≤ degree → degree ≤ 2 → (∀ s z, ∃ o, fitZ s z = .ok o) →
      ∃ r, lineMeas velocityFit lbfgsb degree fitZ grid st = .ok r) := by
  refine ⟨?_, ?_, ?_⟩
  · rintro (⟨rfl, rfl⟩ | h)
    · rfl
    · unfold lineMeas
      split
      · rfl
      · rfl
  · intro bz bs h
    unfold lineMeas at h
    split at h
    · simp at h
    split at h
    · simp at h
    rw [Res.bind_eq_ok] at h
    obtain ⟨x, hx, h⟩ := h
    have := SvdFit.foldL_ok (P := fun (pre : List K) (x : σ × Option (K × K × S)) => ∃ outs : List (Option K × S),
        Run fitZ st pre x.1 outs ∧ ((x.2 = none ∧ ∀ o ∈ outs, o.1 = none) ∨
          ∃ (i : Nat) (z m : K) (sol : S), pre[i]? = some z ∧ outs[i]? = some (some m, sol) ∧ FirstMin (outs.map (·.1)) i m ∧
            x.2 = some (m, z, sol))) grid [] (st, none) x ⟨[], .nil, .inl ⟨rfl, by simp⟩⟩
      (by
        rintro pre z y y' _ ⟨outs, hr, hb⟩ hstep
        simp only [measStep, Res.bind_eq_ok] at hstep
        obtain ⟨⟨s1, o, sol⟩, ho, hstep⟩ := hstep
        obtain rfl := Res.ok.inj hstep
        refine ⟨outs ++ [(o, sol)], hr.snoc ho, ?_⟩
        have hl := hr.length
        simp only
        rcases hb with ⟨hn, hall⟩ | ⟨i, z', m, sol', h1, h2, h3, h4⟩
        · rw [hn]
          cases o with
          | none =>
            exact .inl ⟨rfl, fun o ho => by rcases List.mem_append.1 ho with h | h; exacts [hall o h, by rw [List.mem_singleton.1 h]]⟩
          | some m =>
            refine .inr ⟨outs.length, z, m, sol, by rw [hl]; simp, by simp, ?_, rfl⟩
            rw [List.map_append, ← List.length_map (f := fun o : Option K × S => o.1) (as := outs)]
            refine FirstMin.new (fun j x hx => ?_)
            obtain ⟨o', ho', e⟩ := List.mem_map.1 (List.mem_of_getElem? hx)
            rw [hall o' ho'] at e
            simp at e
        · rw [h4]
          cases o with
          | none =>
            refine .inr ⟨i, z', m, sol', getElem?_append_some h1, getElem?_append_some h2, ?_, rfl⟩
            rw [List.map_append]
            exact h3.keep (by simp)
          | some x =>
            simp only
            split
            · rename_i hlt
              refine .inr ⟨outs.length, z, x, sol, by rw [hl]; simp, by simp, ?_, rfl⟩
              rw [List.map_append, ← List.length_map (f := fun o : Option K × S => o.1) (as := outs)]
              exact FirstMin.new (fun j y hy => lt_of_lt_of_le hlt (h3.2.2 j y hy))
            · rename_i hlt
              refine .inr ⟨i, z', m, sol', getElem?_append_some h1, getElem?_append_some h2, ?_, rfl⟩
              rw [List.map_append]
              exact h3.keep (fun y hy => by obtain rfl := Option.some.inj hy; exact not_lt.1 hlt))
      hx
    obtain ⟨outs, hr, hb⟩ := this
    simp only [List.nil_append] at hr hb
    simp only [Res.ok.injEq, Prod.mk.injEq] at h
    obtain ⟨rfl, rfl⟩ := h
    refine ⟨x.1, outs, hr, ?_⟩
    rcases hb with ⟨hn, hall⟩ | ⟨i, z', m, sol', h1, h2, h3, h4⟩
    · exact .inl ⟨by rw [hn]; rfl, by rw [hn]; rfl, hall⟩
    · exact .inr ⟨i, z', m, sol', h1, h2, h3, by rw [h4]; rfl, by rw [h4]; rfl⟩
  · intro h1 h2 h3 hf
    unfold lineMeas
    rw [if_neg (by rcases h1 with rfl | rfl <;> simp), if_neg (by omega)]
    obtain ⟨x, hx, _⟩ := EltList.foldL_inv (P := fun _ _ => True) (f := measStep fitZ) grid [] (st, none) trivial
      (fun _ z x _ _ => by
        obtain ⟨o, ho⟩ := hf x.1 z
        exact ⟨_, by unfold measStep; rw [ho, Res.bind_ok], trivial⟩)
    rw [hx, Res.bind_ok]
    exact ⟨_, rfl⟩

/-- Scores 4, 1, 1 and none at 1, 2, 4 and 5: the first redshift of score 1 is 2; a degree of 3 is refused. -/
example : lineMeas (K := ℚ) (S := ℚ) false false 1 (fun (s : ℚ) z => .ok (s + 1, if z < 5 then some ((z - 3) * (z - 3)) else none, s)) [1, 2, 4, 5] 0 =
      .ok (some 2, some 1) ∧
    lineMeas (K := ℚ) (S := ℚ) false false 1 (fun (s : ℚ) z => .ok (s, none, s)) [1, 2] 0 = .ok (none, none) ∧
    lineMeas (K := ℚ) (S := ℚ) false false 3 (fun (s : ℚ) z => .ok (s, none, s)) [1, 2] 0 = .throw .INVALID_PARAMETER ∧
    lineMeas (K := ℚ) (S := ℚ) true false 1 (fun (s : ℚ) z => .ok (s, none, s)) [1, 2] 0 = .throw .INVALID_PARAMETER := by
  decide +kernel

end
end SecondPass
end Amazed
