import Verif.Props.TemplateProps
import Verif.Props.TplFitLsq

/-! # C65: fit of a template at one redshift over the dust and IGM grids -/

set_option linter.unusedSectionVars false
set_option linter.unusedVariables false

namespace Amazed
namespace TplFit

variable {K : Type} [Field K] [LinearOrder K] [IsStrictOrderedRing K]

/-! ## Specification -/

/-- An observation and the template rebinned on it: rest wavelengths, template flux without extinction, observed flux,
error, additional mask, first and last sample of the fit. -/
structure Obs (K : Type) where
  axis : List K
  base : List K
  flux : List K
  err : List K
  mask : List Nat
  kStart : Nat
  kEnd : Nat

/-- The samples of one observation between the indices `k` and `k + n` (excluded) that are not masked, for a model that
is the template flux times `d` (dust) times `g` (IGM) at the rest wavelength. -/
def Obs.samples (o : Obs K) (d g : K → K) (k n : Nat) : List (Sample K) :=
  (List.range' k n).filterMap (fun j =>
    if o.mask[j]?.getD 0 = 0 then none
    else some ⟨o.flux[j]?.getD 0, o.base[j]?.getD 0 * d (o.axis[j]?.getD 0) * g (o.axis[j]?.getD 0), o.err[j]?.getD 0⟩)

/-- All the samples of one observation. -/
def Obs.all (o : Obs K) (d g : K → K) : List (Sample K) := o.samples d g o.kStart (o.kEnd + 1 - o.kStart)

/-- All the samples of the fit. -/
def allSamples (obs : List (Obs K)) (d g : K → K) : List (Sample K) := obs.flatMap (fun o => o.all d g)

/-- A usable observation: axes of one size in increasing order, a range of samples, non null errors. -/
structure Obs.Ok (o : Obs K) : Prop where
  sorted : o.axis.Pairwise (· ≤ ·)
  base_len : o.base.length = o.axis.length
  flux_len : o.flux.length = o.axis.length
  err_len : o.err.length = o.axis.length
  mask_len : o.mask.length = o.axis.length
  le : o.kStart ≤ o.kEnd
  lt : o.kEnd < o.axis.length
  err_ne : ∀ j : Nat, o.kStart ≤ j → j ≤ o.kEnd → ∀ e, o.err[j]? = some e → e ≠ 0

/-! ## The sums -/

theorem Sums.add_zero (a : Sums K) : a.add Sums.zero = a := by cases a; simp [Sums.add, Sums.zero]
theorem Sums.zero_add (a : Sums K) : Sums.zero.add a = a := by cases a; simp [Sums.add, Sums.zero]
theorem Sums.add_assoc (a b c : Sums K) : (a.add b).add c = a.add (b.add c) := by
  simp [Sums.add, _root_.add_assoc]
theorem Sums.add_sub (a b : Sums K) : (a.add b).sub a = b := by
  cases a; cases b; simp [Sums.add, Sums.sub]
theorem Sums.sub_zero (a : Sums K) : a.sub Sums.zero = a := by cases a; simp [Sums.sub, Sums.zero]

theorem sumsOf_append (a b : List (Sample K)) : sumsOf (a ++ b) = (sumsOf a).add (sumsOf b) := by
  simp [sumsOf, Sums.add]

theorem sumsOf_nil : sumsOf ([] : List (Sample K)) = Sums.zero := by simp [sumsOf, Sums.zero]

theorem foldl_add (l : List (Sums K)) : ∀ a : Sums K, l.foldl Sums.add a = a.add (l.foldl Sums.add Sums.zero) := by
  induction l with
  | nil => intro a; simp [Sums.add_zero]
  | cons x l ih =>
    intro a
    simp only [List.foldl_cons]
    rw [ih, ih (Sums.zero.add x), Sums.zero_add, Sums.add_assoc]

theorem Res.foldN_add {σ : Type} (f : Nat → σ → Res σ) (a b : Nat) : ∀ (k : Nat) (s : σ),
    Res.foldN f k (a + b) s = Res.foldN f k a s >>= fun s' => Res.foldN f (k + a) b s' := by
  induction a with
  | zero => intro k s; simp [Res.foldN]
  | succ a ih =>
    intro k s
    rw [show a + 1 + b = (a + b) + 1 by omega]
    show (f k s >>= fun s' => Res.foldN f (k + 1) (a + b) s') =
      (f k s >>= fun s' => Res.foldN f (k + 1) a s') >>= fun s' => Res.foldN f (k + (a + 1)) b s'
    cases f k s with
    | ok s' => simp only [Res.bind_ok]; rw [ih]; rw [show k + 1 + a = k + (a + 1) by omega]
    | throw e => rfl
    | ub => rfl

/-- The rebinned template of the slot has the flux `base · d · g` in the range of the fit. -/
def Agree (o : Obs K) (d g : K → K) (s : Slot K) : Prop :=
  s.flux = o.flux ∧ s.err = o.err ∧ s.mask = o.mask ∧ s.kStart = o.kStart ∧ s.kEnd = o.kEnd ∧
  ∀ j : Nat, o.kStart ≤ j → j ≤ o.kEnd →
    s.t.flux[j]? = some (o.base[j]?.getD 0 * d (o.axis[j]?.getD 0) * g (o.axis[j]?.getD 0))

theorem samples_succ (o : Obs K) (d g : K → K) (k n : Nat) :
    o.samples d g k (n + 1) = (o.samples d g k 1) ++ o.samples d g (k + 1) n := by
  unfold Obs.samples
  rw [← List.filterMap_append]
  congr 1

theorem samples_add (o : Obs K) (d g : K → K) (k n m : Nat) :
    o.samples d g k (n + m) = (o.samples d g k n) ++ o.samples d g (k + n) m := by
  unfold Obs.samples
  rw [← List.filterMap_append]
  congr 1
  rw [List.range'_append_1]

/-- One iteration of the loop of the sums. -/
theorem crossBody_ok {o : Obs K} (ho : o.Ok) {d g : K → K} {s : Slot K} (ha : Agree o d g s) (fast : Bool) (e : Int)
    {j : Nat} (h1 : o.kStart ≤ j) (h2 : j ≤ o.kEnd) (a : Acc K) :
    crossBody fast e s j a = .ok
      (let a' := if fast = true ∧ a.saved = false ∧ e < j then { a with igm := a.sums, saved := true } else a
       { a' with sums := a.sums.add (sumsOf (o.samples d g j 1)) }) := by
  obtain ⟨e1, e2, e3, e4, e5, e6⟩ := ha
  have hj : j < o.axis.length := lt_of_le_of_lt h2 ho.lt
  have hm : j < s.mask.length := by rw [e3, ho.mask_len]; exact hj
  have hE : j < s.err.length := by rw [e2, ho.err_len]; exact hj
  have hF : j < s.flux.length := by rw [e1, ho.flux_len]; exact hj
  have hx := e6 j h1 h2
  unfold crossBody
  simp only []
  rw [Res.at_of_lt hm, Res.bind_ok]
  set a' := (if fast = true ∧ a.saved = false ∧ e < j then { a with igm := a.sums, saved := true } else a) with ha'
  have hs : a'.sums = a.sums := by rw [ha']; split <;> rfl
  have hmask : o.mask[j]?.getD 0 = s.mask[j] := by rw [← e3]; simp [hm]
  by_cases hm0 : s.mask[j] = 0
  · rw [if_neg (by simpa using hm0)]
    have : o.samples d g j 1 = [] := by
      unfold Obs.samples
      simp [hmask, hm0]
    rw [this, sumsOf_nil, Sums.add_zero, ← hs]
  · rw [if_pos hm0, Res.at_of_lt hE, Res.bind_ok, Res.at_of_lt hF, Res.bind_ok, Res.at_eq_ok.2 hx, Res.bind_ok]
    have hne : s.err[j] ≠ 0 := by
      apply ho.err_ne j h1 h2
      rw [← e2]; simp [hE]
    rw [if_neg (mul_ne_zero hne hne)]
    have : o.samples d g j 1 = [⟨s.flux[j], o.base[j]?.getD 0 * d (o.axis[j]?.getD 0) * g (o.axis[j]?.getD 0), s.err[j]⟩] := by
      unfold Obs.samples
      have q1 : o.flux[j]?.getD 0 = s.flux[j] := by rw [← e1]; simp [hF]
      have q2 : o.err[j]?.getD 0 = s.err[j] := by rw [← e2]; simp [hE]
      simp [hmask, hm0, q1, q2]
    rw [this]
    simp [sumsOf, Sums.add, hs]

/-- Iterations in which the kept sums do not change. -/
theorem crossFold_plain {o : Obs K} (ho : o.Ok) {d g : K → K} {s : Slot K} (ha : Agree o d g s) (fast : Bool) (e : Int)
    (n : Nat) : ∀ (k : Nat) (a : Acc K), o.kStart ≤ k → k + n ≤ o.kEnd + 1 →
      (fast = false ∨ a.saved = true ∨ n = 0 ∨ ((k : Int) + n ≤ e + 1)) →
      Res.foldN (crossBody fast e s) k n a = .ok { a with sums := a.sums.add (sumsOf (o.samples d g k n)) } := by
  induction n with
  | zero =>
    intro k a _ _ _
    simp [Res.foldN, Obs.samples, sumsOf_nil, Sums.add_zero]
  | succ n ih =>
    intro k a h1 h2 h3
    unfold Res.foldN
    rw [crossBody_ok ho ha fast e h1 (by omega)]
    have hno : ¬ (fast = true ∧ a.saved = false ∧ e < k) := by
      rintro ⟨q1, q2, q3⟩
      rcases h3 with h | h | h | h
      · rw [q1] at h; cases h
      · rw [q2] at h; cases h
      · omega
      · push_cast at h; omega
    simp only [if_neg hno, Res.bind_ok]
    rw [ih (k + 1) _ (by omega) (by omega)]
    · rw [samples_succ o d g k n, sumsOf_append, Sums.add_assoc]
    · rcases h3 with h | h | h | h
      · exact Or.inl h
      · exact Or.inr (Or.inl h)
      · omega
      · right; right; right; push_cast at h ⊢; omega

/-- The index of the last sample with IGM extinction, -1 for none, and the number of samples up to it. -/
def below (o : Obs K) (e : Int) : Nat := (e + 1 - o.kStart).toNat

/-- Full loop with fast processing: the sums, the kept sums. -/
theorem crossFold_fast {o : Obs K} (ho : o.Ok) {d g : K → K} {s : Slot K} (ha : Agree o d g s) {e : Int}
    (he : e < o.kEnd) (he0 : -1 ≤ e) :
    Res.foldN (crossBody true e s) o.kStart (o.kEnd + 1 - o.kStart) ⟨Sums.zero, Sums.zero, false⟩ =
      .ok ⟨sumsOf (o.all d g), sumsOf (o.samples d g o.kStart (below o e)), true⟩ := by
  have hle := ho.le
  set b := below o e with hb
  have hbn : b < o.kEnd + 1 - o.kStart := by unfold below at hb; omega
  obtain ⟨m, hm⟩ : ∃ m, o.kEnd + 1 - o.kStart = b + (1 + m) := ⟨o.kEnd + 1 - o.kStart - b - 1, by omega⟩
  have hall : o.all d g = o.samples d g o.kStart (b + (1 + m)) := by unfold Obs.all; rw [hm]
  rw [hm, Res.foldN_add]
  rw [crossFold_plain ho ha true e b o.kStart _ le_rfl (by omega) (by
    rcases Nat.eq_zero_or_pos b with h | h
    · exact Or.inr (Or.inr (Or.inl h))
    · right; right; right; unfold below at hb; omega)]
  rw [Res.bind_ok, Res.foldN_add]
  have h1 : Res.foldN (crossBody true e s) (o.kStart + b) 1
      ⟨Sums.zero.add (sumsOf (o.samples d g o.kStart b)), Sums.zero, false⟩ = .ok
      ⟨(sumsOf (o.samples d g o.kStart b)).add (sumsOf (o.samples d g (o.kStart + b) 1)),
        sumsOf (o.samples d g o.kStart b), true⟩ := by
    unfold Res.foldN
    rw [crossBody_ok ho ha true e (by omega) (by omega)]
    have hyes : e < (o.kStart : Int) + b := by unfold below at hb; omega
    simp [hyes, Res.foldN, Sums.zero_add]
  simp only [] at h1 ⊢
  rw [h1, Res.bind_ok, crossFold_plain ho ha true e m (o.kStart + b + 1) _ (by omega) (by omega) (Or.inr (Or.inl rfl))]
  rw [hall, samples_add, samples_add, sumsOf_append, sumsOf_append, Sums.add_assoc]

/-- Full loop, with or without fast processing: the sums are those of all the samples. -/
theorem crossFold_any {o : Obs K} (ho : o.Ok) {d g : K → K} {s : Slot K} (ha : Agree o d g s) (fast : Bool) (e : Int)
    (n : Nat) : ∀ (k : Nat) (a : Acc K), o.kStart ≤ k → k + n ≤ o.kEnd + 1 →
      ∃ r, Res.foldN (crossBody fast e s) k n a = .ok r ∧ r.sums = a.sums.add (sumsOf (o.samples d g k n)) := by
  induction n with
  | zero =>
    intro k a _ _
    exact ⟨a, rfl, by simp [Obs.samples, sumsOf_nil, Sums.add_zero]⟩
  | succ n ih =>
    intro k a h1 h2
    obtain ⟨r, e1, e2⟩ := ih (k + 1)
      (let a' := if fast = true ∧ a.saved = false ∧ e < k then { a with igm := a.sums, saved := true } else a
       { a' with sums := a.sums.add (sumsOf (o.samples d g k 1)) }) (by omega) (by omega)
    refine ⟨r, ?_, ?_⟩
    · show (crossBody fast e s k a >>= fun s' => Res.foldN (crossBody fast e s) (k + 1) n s') = _
      rw [crossBody_ok ho ha fast e h1 (by omega), Res.bind_ok]
      exact e1
    · rw [e2, samples_succ o d g k n, sumsOf_append, Sums.add_assoc]

/-! ## The extinctions -/

/-- The value of a coefficient that is defined. -/
def val (r : Res K) : K := match r with | .ok v => v | _ => 0

/-- The dust coefficient at the rest wavelength `w` for the dust index `k` (negative for none). -/
def dustFun (op : Opt K) (k : Int) (w : K) : K :=
  if op.dust = true ∧ 0 ≤ k then val (op.c.dust k w) else 1

/-- The IGM coefficient at the rest wavelength `w` for the IGM index `i` (negative for none). -/
def igmFun (op : Opt K) (i : Int) (w : K) : K :=
  if op.igm = true ∧ 0 ≤ i ∧ w ≤ op.c.igmMax then
    match op.c.zIndex op.z with
    | some zi => val (op.c.igm zi i w)
    | none => 0
  else 1

/-- The slot `s` of observation `o` after the dust index `kd` and the IGM index `i` are applied. -/
structure Rel (op : Opt K) (hd hi : Bool) (o : Obs K) (kd i : Int) (s : Slot K) : Prop where
  flux : s.flux = o.flux
  err : s.err = o.err
  mask : s.mask = o.mask
  kStart : s.kStart = o.kStart
  kEnd : s.kEnd = o.kEnd
  inv : Tpl.Inv op.c o.axis hd hi s.t
    ⟨o.base, if op.dust = true ∨ op.igm = true then some (o.kStart, o.kEnd, op.z, kd, i) else none⟩
  dustOff : op.dust = false → kd = -1
  igmOff : op.igm = false → i = -1
  igmHas : op.igm = true → 0 ≤ i → hi = true

theorem Rel.agree {op : Opt K} {hd hi : Bool} {o : Obs K} (ho : o.Ok) {kd i : Int} {s : Slot K}
    (h : Rel op hd hi o kd i s) : Agree o (dustFun op kd) (igmFun op i) s := by
  refine ⟨h.flux, h.err, h.mask, h.kStart, h.kEnd, fun j h1 h2 => ?_⟩
  have hj : j < o.axis.length := lt_of_le_of_lt h2 ho.lt
  have hw : o.axis[j]? = some o.axis[j] := List.getElem?_eq_getElem hj
  by_cases hact : op.dust = true ∨ op.igm = true
  · have hon := h.inv.on o.kStart o.kEnd op.z kd i (by simp [hact])
    obtain ⟨h14⟩ : Nonempty (∀ (k : Nat) w, o.axis[k]? = some w → ∃ x d g, o.base[k]? = some x ∧ s.t.dustC[k]? = some d ∧ s.t.igmC[k]? = some g ∧
      Tpl.IsDust op.c (if op.dust = true ∨ op.igm = true then some (o.kStart, o.kEnd, op.z, kd, i) else none) k w d ∧
      Tpl.IsIgm op.c hi (if op.dust = true ∨ op.igm = true then some (o.kStart, o.kEnd, op.z, kd, i) else none) k w g ∧
      s.t.flux[k]? = some (x * d * g)) := ⟨hon.2.2.2.2.2.2.2.2.2.2.2.2.2⟩
    obtain ⟨x, d, g, e1, -, -, e4, e5, e6⟩ := h14 j _ hw
    rw [if_pos hact] at e4 e5
    rw [e6, e1, hw]
    simp only [Option.getD_some]
    have hd' : d = dustFun op kd o.axis[j] := by
      unfold dustFun
      simp only [Tpl.IsDust] at e4
      by_cases hk : 0 ≤ kd
      · rw [if_pos ⟨by omega, by omega, hk⟩] at e4
        have : op.dust = true := by
          by_contra hc
          have := h.dustOff (by simpa using hc)
          omega
        rw [if_pos ⟨this, hk⟩, e4]; rfl
      · rw [if_neg (by omega)] at e4
        rw [if_neg (by tauto), e4]
    have hg' : g = igmFun op i o.axis[j] := by
      unfold igmFun
      simp only [Tpl.IsIgm] at e5
      by_cases hk : 0 ≤ i ∧ o.axis[j] ≤ op.c.igmMax
      · have hig : op.igm = true := by
          by_contra hc
          have := h.igmOff (by simpa using hc)
          omega
        rw [if_pos ⟨h.igmHas hig hk.1, by omega, by omega, hk.2, hk.1⟩] at e5
        obtain ⟨zi, z1, z2⟩ := e5
        rw [if_pos ⟨hig, hk.1, hk.2⟩, z1]
        simp only [z2]; rfl
      · rw [if_neg (by tauto)] at e5
        rw [if_neg (by tauto), e5]
    rw [hd', hg']
  · have hoff := h.inv.off (by simp [hact])
    rw [hoff.2]
    have hb : j < o.base.length := by rw [ho.base_len]; exact hj
    have h1 : dustFun op kd o.axis[j] = 1 := by unfold dustFun; rw [if_neg (by tauto)]
    have h2 : igmFun op i o.axis[j] = 1 := by unfold igmFun; rw [if_neg (by tauto)]
    rw [hw]
    simp [hb, h1, h2]

/-- Applying a dust index. -/
theorem Rel.dustStep {op : Opt K} {hd hi : Bool} {o : Obs K} (ho : o.Ok) {kd i : Int} {s : Slot K}
    (h : Rel op hd hi o kd i s) (hop : op.dust = true) {k : Int} {b : Bool} {s' : Slot K}
    (hs : dustSlot op k s = .ok (b, s')) : Rel op hd hi o k i s' ∧ s'.out = s.out := by
  unfold dustSlot at hs
  obtain ⟨b', h1, h2⟩ := Res.bind_eq_ok.1 hs
  cases h2
  have := Tpl.inv_step op.c ho.sorted h.inv (.dust k) (by simp only [Tpl.step]; rw [h1]; rfl)
  refine ⟨⟨h.flux, h.err, h.mask, h.kStart, h.kEnd, ?_, fun hc => (by rw [hop] at hc; cases hc), h.igmOff, h.igmHas⟩, rfl⟩
  simpa [Tpl.step, Tpl.Spec.step, hop] using this

/-- Applying an IGM index. -/
theorem Rel.igmStep {op : Opt K} {hd hi : Bool} {o : Obs K} (ho : o.Ok) {kd i : Int} {s : Slot K}
    (h : Rel op hd hi o kd i s) (hop : op.igm = true) {k : Int} {b : Bool} {s' : Slot K}
    (hs : igmSlot op k s = .ok (b, s')) :
    Rel op hd hi o kd k s' ∧ s'.out = s.out ∧ b = decide (o.axis[o.kStart]?.getD 0 ≤ op.c.igmMax) := by
  unfold igmSlot at hs
  obtain ⟨b', h1, h2⟩ := Res.bind_eq_ok.1 hs
  cases h2
  have := Tpl.inv_step op.c ho.sorted h.inv (.igm k) (by simp only [Tpl.step]; rw [h1]; rfl)
  have hhi : hi = true := by
    unfold Tpl.applyIgm at h1
    by_contra hc
    have : s.t.hasIgm = false := by rw [h.inv.hi_eq]; simpa using hc
    rw [if_pos (Or.inr this)] at h1
    cases h1
  refine ⟨⟨h.flux, h.err, h.mask, h.kStart, h.kEnd, ?_, h.dustOff, fun hc => (by rw [hop] at hc; cases hc), fun _ _ => hhi⟩, rfl, ?_⟩
  · simpa [Tpl.step, Tpl.Spec.step, hop] using this
  · have hon := h.inv.on o.kStart o.kEnd op.z kd i (by simp [hop])
    have he := (hon.2.2.2.2.2.2.2.2.2.2.2.1 hhi).2.2
    rw [Int.toNat_natCast, Int.toNat_natCast] at he
    have hn : b = decide (s.t.igmEnd ≠ none) := by
      unfold Tpl.applyIgm at h1
      split at h1
      · cases h1
      · split at h1
        · simp only [Res.ok.injEq] at h1; exact h1.symm
        · simp only at h1
          split at h1
          · rename_i hn; cases h1; rw [hn]; rfl
          · rename_i x hx
            rw [hx]
            split at h1
            · cases h1; rfl
            · cases h1
            · cases h1
    rw [hn]
    congr 1
    have hj : o.kStart < o.axis.length := lt_of_le_of_lt ho.le ho.lt
    have hw : o.axis[o.kStart]? = some o.axis[o.kStart] := List.getElem?_eq_getElem hj
    have hsp := Tpl.igmEndIndex_spec op.c ho.sorted ho.lt ho.le o.kStart _ hw le_rfl ho.le
    rw [hw, Option.getD_some, hsp, he]
    apply propext
    constructor
    · intro hne
      obtain ⟨x, hx⟩ := Option.ne_none_iff_exists'.1 hne
      exact ⟨x, hx, (Tpl.igmEndIndex_range op.c ho.lt ho.le hx).1⟩
    · rintro ⟨x, hx, -⟩; rw [hx]; simp

theorem samples_congr (o : Obs K) {d d' g g' : K → K} {k n : Nat}
    (h : ∀ j : Nat, k ≤ j → j < k + n → d (o.axis[j]?.getD 0) * g (o.axis[j]?.getD 0) = d' (o.axis[j]?.getD 0) * g' (o.axis[j]?.getD 0)) :
    o.samples d g k n = o.samples d' g' k n := by
  unfold Obs.samples
  apply List.filterMap_congr
  intro j hj
  rw [List.mem_range'_1] at hj
  have := h j hj.1 hj.2
  rw [mul_assoc, mul_assoc, this]

/-- Last sample of the fit range at or below the largest wavelength of the IGM curves, -1 for none. -/
def endIdx (op : Opt K) (o : Obs K) : Int :=
  match Tpl.igmEndIndex op.c o.axis o.kStart o.kEnd with | none => -1 | some e => (e : Int)

theorem endIdx_ge (op : Opt K) (o : Obs K) : -1 ≤ endIdx op o := by unfold endIdx; split <;> omega

theorem endIdx_spec (op : Opt K) {o : Obs K} (ho : o.Ok) {j : Nat} (h1 : o.kStart ≤ j) (h2 : j ≤ o.kEnd) :
    (j : Int) ≤ endIdx op o ↔ o.axis[j]?.getD 0 ≤ op.c.igmMax := by
  have hj : j < o.axis.length := lt_of_le_of_lt h2 ho.lt
  have hw : o.axis[j]? = some o.axis[j] := List.getElem?_eq_getElem hj
  have := Tpl.igmEndIndex_spec op.c ho.sorted ho.lt ho.le j _ hw h1 h2
  rw [hw]
  simp only [Option.getD_some, this]
  unfold endIdx
  constructor
  · intro h
    split at h
    · omega
    · rename_i e he; exact ⟨e, he, by omega⟩
  · rintro ⟨e, he, hle⟩
    rw [he]; simpa using hle

/-- The sums of the samples above the IGM range. -/
def above (op : Opt K) (o : Obs K) (d : K → K) : Sums K :=
  sumsOf (o.samples d (fun _ => 1) (o.kStart + below o (endIdx op o)) (o.kEnd + 1 - o.kStart - below o (endIdx op o)))

theorem all_split (op : Opt K) {o : Obs K} (ho : o.Ok) (d : K → K) (i : Int) (hlast : endIdx op o < o.kEnd) :
    sumsOf (o.all d (igmFun op i)) =
      (sumsOf (o.samples d (igmFun op i) o.kStart (below o (endIdx op o)))).add (above op o d) := by
  have hle := ho.le
  have hb : below o (endIdx op o) ≤ o.kEnd + 1 - o.kStart := by unfold below; omega
  unfold Obs.all above
  rw [show o.kEnd + 1 - o.kStart = below o (endIdx op o) + (o.kEnd + 1 - o.kStart - below o (endIdx op o)) by omega,
    samples_add, sumsOf_append]
  congr 2
  rw [show below o (endIdx op o) + (o.kEnd + 1 - o.kStart - below o (endIdx op o)) - below o (endIdx op o) =
    o.kEnd + 1 - o.kStart - below o (endIdx op o) by omega]
  apply samples_congr
  intro j h1 h2
  have hj : ¬ ((j : Int) ≤ endIdx op o) := by unfold below at h1; omega
  rw [endIdx_spec op ho (by omega) (by omega)] at hj
  congr 1
  unfold igmFun
  rw [if_neg (by tauto)]

theorem Rel.igmEnd {op : Opt K} {hd hi : Bool} {o : Obs K} {kd i : Int} {s : Slot K}
    (h : Rel op hd hi o kd i s) {e : Int} (he : igmEndIdx s.t = .ok e) : e = endIdx op o := by
  unfold igmEndIdx at he
  split at he
  · cases he
  · rename_i hn
    push Not at hn
    cases he
    have hhi : hi = true := by rw [← h.inv.hi_eq]; simpa using hn.2
    have hact : op.dust = true ∨ op.igm = true := by
      by_contra hc
      have := (h.inv.off (by simp [hc])).1
      exact hn.1 (by simp [Tpl.enabled, this])
    have := (h.inv.on o.kStart o.kEnd op.z kd i (by simp [hact])).2.2.2.2.2.2.2.2.2.2.2.1 hhi
    rw [this.2.2, Int.toNat_natCast, Int.toNat_natCast]
    unfold endIdx
    cases Tpl.igmEndIndex op.c o.axis o.kStart o.kEnd <;> rfl

/-- The sums at the first IGM index, or without fast processing. -/
theorem crossProducts_full {op : Opt K} {hd hi : Bool} {o : Obs K} (ho : o.Ok) {kd i : Int} {s : Slot K}
    (h : Rel op hd hi o kd i s) {fast : Bool} {kM kE : Nat} (hf : fast = false ∨ kM = 0) {q : Sums K} {s' : Slot K}
    (hc : crossProducts fast kM kE s = .ok (q, s')) :
    q = sumsOf (o.all (dustFun op kd) (igmFun op i)) ∧ q.t ≠ 0 ∧ Rel op hd hi o kd i s' ∧
    (fast = false → s'.out = s.out) ∧
    (fast = true → s'.out.length = s.out.length ∧ (∀ k : Nat, k ≠ kE → s'.out[k]? = s.out[k]?) ∧
      (endIdx op o < o.kEnd → s'.out[kE]? = some (above op o (dustFun op kd)))) := by
  have ha := h.agree ho
  have hle := ho.le
  unfold crossProducts at hc
  obtain ⟨e, h1, hc⟩ := Res.bind_eq_ok.1 hc
  have hno : ¬ (fast = true ∧ 0 < kM) := by rintro ⟨q1, q2⟩; rcases hf with h | h; · rw [h] at q1; cases q1
                                            · omega
  rw [if_neg hno] at hc
  simp only at hc
  obtain ⟨a, h2, hc⟩ := Res.bind_eq_ok.1 hc
  rw [h.kStart, h.kEnd, show (((o.kEnd : Int) + 1 - o.kStart).toNat) = o.kEnd + 1 - o.kStart by omega] at h2
  obtain ⟨r, r1, r2⟩ := crossFold_any ho ha fast e (o.kEnd + 1 - o.kStart) o.kStart ⟨Sums.zero, Sums.zero, false⟩ le_rfl (by omega)
  rw [r1] at h2
  cases h2
  rw [Sums.zero_add] at r2
  obtain ⟨p, h3, hc⟩ := Res.bind_eq_ok.1 hc
  split at hc
  · cases hc
  rename_i ht
  cases hc
  cases hfast : fast with
  | false =>
    rw [hfast] at h3
    simp only [Bool.false_eq_true, if_false, Res.ok.injEq, Prod.mk.injEq] at h3
    obtain ⟨rfl, rfl⟩ := h3
    exact ⟨r2, ht, h, fun _ => rfl, fun hx => by cases hx⟩
  | true =>
    rw [hfast] at h3 h1 r1 hf
    simp only [if_true] at h3 h1
    have hk0 : kM = 0 := by rcases hf with h | h; · cases h
                            · exact h
    rw [if_pos hk0] at h3
    split at h3
    · rename_i hlt
      cases h3
      refine ⟨r2, ht, ⟨h.flux, h.err, h.mask, h.kStart, h.kEnd, h.inv, h.dustOff, h.igmOff, h.igmHas⟩, fun hx => (by cases hx),
        fun _ => ⟨by simp, fun k hk => ?_, fun hlast => ?_⟩⟩
      · show (s.out.set kE _)[k]? = _
        rw [List.getElem?_set_ne (Ne.symm hk)]
      · show (s.out.set kE _)[kE]? = _
        rw [List.getElem?_set_self hlt]
        have he := h.igmEnd h1
        subst he
        have := crossFold_fast ho ha hlast (endIdx_ge op o)
        rw [r1] at this
        simp only [Res.ok.injEq] at this
        rw [this]
        simp only [all_split op ho _ _ hlast, Sums.add_sub]
    · cases h3

/-- The sums at the next IGM indices with fast processing. -/
theorem crossProducts_next {op : Opt K} {hd hi : Bool} {o : Obs K} (ho : o.Ok) {kd i : Int} {s : Slot K}
    (h : Rel op hd hi o kd i s) {kM kE : Nat} (hk : 0 < kM) (hlast : endIdx op o < o.kEnd)
    (hout : s.out[kE]? = some (above op o (dustFun op kd))) {q : Sums K} {s' : Slot K}
    (hc : crossProducts true kM kE s = .ok (q, s')) :
    q = sumsOf (o.all (dustFun op kd) (igmFun op i)) ∧ q.t ≠ 0 ∧ s' = s := by
  have ha := h.agree ho
  have hle := ho.le
  unfold crossProducts at hc
  obtain ⟨e, h1, hc⟩ := Res.bind_eq_ok.1 hc
  simp only [if_true] at h1
  have he := h.igmEnd h1
  subst he
  rw [if_pos ⟨rfl, hk⟩] at hc
  simp only at hc
  obtain ⟨a, h2, hc⟩ := Res.bind_eq_ok.1 hc
  rw [h.kStart] at h2
  change Res.foldN (crossBody true (endIdx op o) s) o.kStart (below o (endIdx op o)) ⟨Sums.zero, Sums.zero, false⟩ = .ok a at h2
  have hge := endIdx_ge op o
  rw [crossFold_plain ho ha true _ _ o.kStart _ le_rfl (by unfold below; omega) (by
    rcases Nat.eq_zero_or_pos (below o (endIdx op o)) with hb | hb
    · exact Or.inr (Or.inr (Or.inl hb))
    · right; right; right; unfold below at hb ⊢; omega)] at h2
  cases h2
  obtain ⟨p, h3, hc⟩ := Res.bind_eq_ok.1 hc
  split at hc
  · cases hc
  rename_i ht
  cases hc
  simp only [if_true] at h3
  rw [if_neg (by omega), Res.at_eq_ok.2 hout, Res.bind_ok] at h3
  cases h3
  refine ⟨?_, ht, rfl⟩
  rw [all_split op ho _ _ hlast, Sums.zero_add]

/-! ## The loops -/

theorem mapSlots_ok {β : Type} {f : Slot K → Res (β × Slot K)} {R R' : Obs K → Slot K → Prop} {Q : Obs K → β → Prop} :
    ∀ {obs : List (Obs K)} {ss ss' : List (Slot K)} {bs : List β},
    (∀ o ∈ obs, ∀ s b s', R o s → f s = .ok (b, s') → R' o s' ∧ Q o b) →
    List.Forall₂ R obs ss → mapSlots f ss = .ok (bs, ss') → List.Forall₂ R' obs ss' ∧ List.Forall₂ Q obs bs := by
  intro obs
  induction obs with
  | nil =>
    intro ss ss' bs hf hR hm
    cases hR
    simp only [mapSlots, Res.ok.injEq, Prod.mk.injEq] at hm
    obtain ⟨rfl, rfl⟩ := hm
    exact ⟨.nil, .nil⟩
  | cons o obs ih =>
    intro ss ss' bs hf hR hm
    cases hR with
    | cons h1 h2 =>
      rename_i s ss
      unfold mapSlots at hm
      obtain ⟨r, e1, hm⟩ := Res.bind_eq_ok.1 hm
      obtain ⟨rs, e2, hm⟩ := Res.bind_eq_ok.1 hm
      cases hm
      obtain ⟨q1, q2⟩ := hf o (by simp) s r.1 r.2 h1 e1
      obtain ⟨q3, q4⟩ := ih (fun o ho => hf o (by simp [ho])) h2 e2
      exact ⟨.cons q1 q3, .cons q2 q4⟩

theorem sums_all {obs : List (Obs K)} {d g : K → K} {qs : List (Sums K)}
    (h : List.Forall₂ (fun o q => q = sumsOf (o.all d g) ∧ q.t ≠ 0) obs qs) :
    qs.foldl Sums.add Sums.zero = sumsOf (allSamples obs d g) := by
  induction h with
  | nil => simp [allSamples, sumsOf_nil]
  | cons h1 _ ih =>
    simp only [List.foldl_cons]
    rw [foldl_add, ih, h1.1, Sums.zero_add]
    simp only [allSamples, List.flatMap_cons, sumsOf_append]

/-- The prior of the dust index `k`. -/
def priorOf (op : Opt K) (k : Int) : Prior K :=
  if op.applyPrior then op.priors[k.toNat]?.getD Prior.empty else Prior.empty

/-- The dust coefficient reported for the dust index `k`. -/
def coeffOf (op : Opt K) (k : Int) : K := if op.dust then op.ebmvValue k else -1

/-- Some sample of the fit is in the IGM range. -/
def Affected (op : Opt K) (obs : List (Obs K)) : Prop :=
  op.igm = true ∧ ∃ o ∈ obs, o.axis[o.kStart]?.getD 0 ≤ op.c.igmMax

/-- `f` is the least squares fit of the samples with dust index `k` and IGM index `i`. -/
def IsFit (op : Opt K) (obs : List (Obs K)) (k i : Int) (f : Fit K) : Prop :=
  ∃ a0, FitSpec op.thr (priorOf op k) (allSamples obs (dustFun op k) (igmFun op i)) f a0

/-- Entry of a table of tables. -/
def get2 {α : Type} (tbl : List (List α)) (a b : Nat) : Option α := (tbl[a]?).bind (fun row => row[b]?)

theorem sample_err {obs : List (Obs K)} (hobs : ∀ o ∈ obs, o.Ok) (d g : K → K) :
    ∀ s ∈ allSamples obs d g, s.e ≠ 0 := by
  intro s hs
  obtain ⟨o, ho, hs⟩ := List.mem_flatMap.1 hs
  have hok := hobs o ho
  have hle := hok.le
  unfold Obs.all Obs.samples at hs
  obtain ⟨j, hj, hs⟩ := List.mem_filterMap.1 hs
  rw [List.mem_range'_1] at hj
  split at hs
  · cases hs
  · cases hs
    have hlt : j < o.err.length := by rw [hok.err_len]; have := hok.lt; omega
    have he : o.err[j]? = some o.err[j] := List.getElem?_eq_getElem hlt
    have := hok.err_ne j hj.1 (by omega) _ he
    simpa [he] using this

theorem amplChi2_fit {sq : K → K} (hsq : IsSqrt sq) {op : Opt K} {obs : List (Obs K)} (hobs : ∀ o ∈ obs, o.Ok) {k i : Int}
    {f : Fit K} (hT : (sumsOf (allSamples obs (dustFun op k) (igmFun op i))).t ≠ 0)
    (h : amplChi2 sq op.thr (priorOf op k) (sumsOf (allSamples obs (dustFun op k) (igmFun op i))) = .ok f) :
    IsFit op obs k i f := by
  obtain ⟨f', a0, e1, e2⟩ := C64_fit hsq op.thr (priorOf op k) _ (sample_err hobs (dustFun op k) (igmFun op i)) (by
    by_contra hc
    push Not at hc
    apply hT
    simp only [sumsOf]
    apply List.sum_eq_zero
    intro x hx
    obtain ⟨s, hs, rfl⟩ := List.mem_map.1 hx
    rw [hc s hs]; ring)
  rw [h] at e1
  cases e1
  exact ⟨a0, e2⟩

/-- The state of one observation at iteration `(kM, kE)`, `i` being the IGM index applied. -/
def SlotInv (op : Opt K) (hd hi : Bool) (i : Int) (kM kE : Nat) (o : Obs K) (s : Slot K) : Prop :=
  (∃ kd, Rel op hd hi o kd i s) ∧
  (op.fast = true → s.out.length = op.ebmv.length ∧
    (op.igm = true → ∀ (a : Nat) (k : Int), op.ebmv[a]? = some k → (0 < kM ∨ a < kE) →
      s.out[a]? = some (above op o (dustFun op k))))

/-- The configuration `(a, b)` is before iteration `(kM, kE)`. -/
def Before (kM kE a b : Nat) : Prop := b < kM ∨ (b = kM ∧ a < kE)

/-- The entry `(a, b)` of the table. -/
def Good (op : Opt K) (obs : List (Obs K)) (a b : Nat) (e : Entry K) (f : Fit K) (k i : Int) : Prop :=
  op.ebmv[a]? = some k ∧ op.meiksin[b]? = some i ∧ IsFit op obs k i f ∧ e = ⟨f.chi2, some (coeffOf op k), i⟩

/-- The state of the results before iteration `(kM, kE)`. -/
structure RInv (op : Opt K) (obs : List (Obs K)) (skip : Bool) (kM kE : Nat) (r : Result K) : Prop where
  tlen : r.tbl.length = op.ebmv.length
  rlen : ∀ row ∈ r.tbl, row.length = op.meiksin.length
  done : ∀ a b : Nat, a < op.ebmv.length → Before kM kE a b → ∃ e f k i, get2 r.tbl a b = some e ∧ Good op obs a b e f k i
  best : (kM = 0 ∧ kE = 0 ∧ r.best = none) ∨ ∃ a b e f k i, a < op.ebmv.length ∧ Before kM kE a b ∧
    get2 r.tbl a b = some e ∧ Good op obs a b e f k i ∧ r.best = some ⟨f, coeffOf op k, if skip then -1 else i⟩ ∧
    ∀ (a' b' : Nat) e', a' < op.ebmv.length → Before kM kE a' b' → get2 r.tbl a' b' = some e' →
      f.chi2 ≤ e'.chi2 ∧ (Before b a a' b' → f.chi2 < e'.chi2)

theorem setTbl_spec {α : Type} {tbl tbl' : List (List α)} {kE kM : Nat} {v : α} (h : setTbl tbl kE kM v = .ok tbl') :
    tbl'.length = tbl.length ∧ (∀ n, (∀ row ∈ tbl, row.length = n) → ∀ row ∈ tbl', row.length = n) ∧
    get2 tbl' kE kM = some v ∧ ∀ a b : Nat, (a ≠ kE ∨ b ≠ kM) → get2 tbl' a b = get2 tbl a b := by
  unfold setTbl at h
  obtain ⟨row, h1, h⟩ := Res.bind_eq_ok.1 h
  have h1 := Res.at_eq_ok.1 h1
  obtain ⟨hlt, hrow⟩ := List.getElem?_eq_some_iff.1 h1
  split at h
  · rename_i hM
    cases h
    refine ⟨by simp, fun n hn r hr => ?_, ?_, fun a b hab => ?_⟩
    · rcases List.mem_or_eq_of_mem_set hr with hr | rfl
      · exact hn r hr
      · rw [List.length_set]; exact hn row (List.mem_of_getElem? h1)
    · unfold get2
      rw [List.getElem?_set_self hlt]
      simp [List.getElem?_set_self hM]
    · unfold get2
      by_cases ha : a = kE
      · subst ha
        rw [List.getElem?_set_self hlt, h1]
        have hb : b ≠ kM := by rcases hab with h | h; · exact absurd rfl h
                               · exact h
        simp [List.getElem?_set_ne (Ne.symm hb)]
      · rw [List.getElem?_set_ne (Ne.symm ha)]
  · cases h

theorem dustFun_off {op : Opt K} (h : op.dust = false) (k k' : Int) : dustFun op k = dustFun op k' := by
  funext w; unfold dustFun; rw [h]; simp

theorem igmFun_off {op : Opt K} (h : op.igm = false) (k k' : Int) : igmFun op k = igmFun op k' := by
  funext w; unfold igmFun; rw [h]; simp

/-- One iteration of the loop on the dust indices. -/
theorem dustStep_inv {sq : K → K} (hsq : IsSqrt sq) {op : Opt K} {obs : List (Obs K)} (hne : obs ≠ [])
    (hobs : ∀ o ∈ obs, o.Ok) (hlast : op.fast = true → op.igm = true → ∀ o ∈ obs, op.c.igmMax < o.axis[o.kEnd]?.getD 0)
    {hd hi : Bool} {skip : Bool} {kM kE : Nat} {mi i : Int} (hmi : op.meiksin[kM]? = some mi)
    (hi' : op.igm = true → i = mi) (hkM : op.igm = false → kM = 0)
    {os os' : List (Slot K) × Result K}
    (hS : List.Forall₂ (SlotInv op hd hi i kM kE) obs os.1) (hR : RInv op obs skip kM kE os.2)
    (h : TplFit.dustStep sq op skip kM mi kE os = .ok os') :
    List.Forall₂ (SlotInv op hd hi i kM (kE + 1)) obs os'.1 ∧ RInv op obs skip kM (kE + 1) os'.2 := by
  unfold TplFit.dustStep at h
  obtain ⟨k, hk, h⟩ := Res.bind_eq_ok.1 h
  have hk := Res.at_eq_ok.1 hk
  have hkE : kE < op.ebmv.length := (List.getElem?_eq_some_iff.1 hk).1
  simp only at h
  obtain ⟨slots, h1, h⟩ := Res.bind_eq_ok.1 h
  obtain ⟨p, h2, h⟩ := Res.bind_eq_ok.1 h
  obtain ⟨cp, h3, h⟩ := Res.bind_eq_ok.1 h
  obtain ⟨f, h4, h⟩ := Res.bind_eq_ok.1 h
  obtain ⟨tbl, h5, h⟩ := Res.bind_eq_ok.1 h
  cases h
  -- after the dust
  have hS1 : List.Forall₂ (fun o s => SlotInv op hd hi i kM kE o s ∧ ∃ kd, Rel op hd hi o kd i s ∧ dustFun op kd = dustFun op k)
      obs slots := by
    cases hdu : op.dust with
    | false =>
      rw [hdu] at h1
      simp only [Bool.false_eq_true, if_false, Res.ok.injEq] at h1
      subst h1
      refine hS.imp ?_
      intro o s hs
      obtain ⟨kd, hkd⟩ := hs.1
      exact ⟨hs, kd, hkd, dustFun_off hdu _ _⟩
    | true =>
      rw [hdu] at h1
      simp only [if_true] at h1
      obtain ⟨r, r1, r2⟩ := Res.bind_eq_ok.1 h1
      cases r2
      refine (mapSlots_ok (Q := fun _ _ => True) (bs := r.1) (ss' := r.2) ?_ hS r1).1
      intro o ho s b s' hs hf
      obtain ⟨⟨kd, hkd⟩, hout⟩ := hs
      obtain ⟨q1, q2⟩ := hkd.dustStep (hobs o ho) hdu hf
      refine ⟨⟨⟨⟨k, q1⟩, ?_⟩, k, q1, rfl⟩, trivial⟩
      rw [q2]; exact hout
  -- the prior
  have hp : p = priorOf op k := by
    unfold priorOf
    split at h2
    · rename_i hap
      rw [if_pos hap]
      unfold Res.atZ at h2
      split at h2
      · cases h2
      · rw [Res.at_eq_ok.1 h2]; rfl
    · rename_i hap
      rw [if_neg hap]; cases h2; rfl
  subst hp
  -- the sums
  have hendlt : ∀ o ∈ obs, op.fast = true → op.igm = true → endIdx op o < o.kEnd := by
    intro o ho q1 q2
    have := hlast q1 q2 o ho
    by_contra hc
    have := (endIdx_spec op (hobs o ho) (hobs o ho).le le_rfl).1 (by omega)
    exact absurd this (not_le.2 (by assumption))
  have hS2 : List.Forall₂ (SlotInv op hd hi i kM (kE + 1)) obs cp.2 ∧
      List.Forall₂ (fun o q => q = sumsOf (o.all (dustFun op k) (igmFun op mi)) ∧ q.t ≠ 0) obs cp.1 := by
    refine mapSlots_ok ?_ hS1 (show mapSlots (crossProducts op.fast kM kE) slots = .ok (cp.1, cp.2) from h3)
    rintro o ho s q s' ⟨hs, kd, hkd, hdf⟩ hf
    have hok := hobs o ho
    have higm : igmFun op i = igmFun op mi := by
      cases hig : op.igm with
      | false => exact igmFun_off hig _ _
      | true => rw [hi' hig]
    by_cases hfull : op.fast = false ∨ kM = 0
    · obtain ⟨q1, q2, q3, q4, q5⟩ := crossProducts_full hok hkd hfull hf
      refine ⟨⟨⟨kd, q3⟩, fun hfa => ?_⟩, ?_, q2⟩
      · obtain ⟨q6, q7, q8⟩ := q5 hfa
        obtain ⟨s1, s2⟩ := hs.2 hfa
        refine ⟨q6.trans s1, fun hig a k' hk' hor => ?_⟩
        by_cases ha : a = kE
        · subst ha
          rw [hk] at hk'; cases hk'
          rw [q8 (hendlt o ho hfa hig), hdf]
        · rw [q7 a ha]
          apply s2 hig a k' hk'
          omega
      · rw [q1, hdf, higm]
    · push Not at hfull
      have hfa : op.fast = true := by simpa using hfull.1
      have hig : op.igm = true := by
        by_contra hc
        exact hfull.2 (hkM (by simpa using hc))
      obtain ⟨s1, s2⟩ := hs.2 hfa
      have hpos : 0 < kM := Nat.pos_of_ne_zero hfull.2
      have hout := s2 hig kE k hk (Or.inl hpos)
      rw [← hdf] at hout
      rw [hfa] at hf
      obtain ⟨q1, q2, q3⟩ := crossProducts_next hok hkd hpos (hendlt o ho hfa hig) hout hf
      refine ⟨⟨⟨kd, by rw [q3]; exact hkd⟩, fun _ => ⟨by rw [q3]; exact s1, fun _ a k' hk' _ => ?_⟩⟩, ?_, q2⟩
      · rw [q3]; exact s2 hig a k' hk' (Or.inl hpos)
      · rw [q1, hdf, higm]
  have hsum := sums_all hS2.2
  have hT : (sumsOf (allSamples obs (dustFun op k) (igmFun op mi))).t ≠ 0 := by
    intro hz
    rw [← weight_sums] at hz
    obtain ⟨o, obs', rfl⟩ := List.exists_cons_of_ne_nil hne
    have hq := hS2.2
    cases hcp : cp.1 with
    | nil => rw [hcp] at hq; cases hq
    | cons q qs =>
      rw [hcp] at hq
      cases hq with
      | cons hq1 _ =>
        apply hq1.2
        have e1 : weight (allSamples (o :: obs') (dustFun op k) (igmFun op mi)) =
            weight (o.all (dustFun op k) (igmFun op mi)) + weight (allSamples obs' (dustFun op k) (igmFun op mi)) := by
          simp [weight, allSamples]
        have e2 := weight_nonneg (o.all (dustFun op k) (igmFun op mi))
        have e3 := weight_nonneg (allSamples obs' (dustFun op k) (igmFun op mi))
        rw [hq1.1, ← weight_sums]
        linarith
  rw [hsum] at h4
  have hfit : IsFit op obs k mi f := amplChi2_fit hsq hobs hT h4
  obtain ⟨t1, t2, t3, t4⟩ := setTbl_spec h5
  refine ⟨hS2.1, ?_⟩
  have hnew : Good op obs kE kM ⟨f.chi2, some (coeffOf op k), mi⟩ f k mi := ⟨hk, hmi, hfit, rfl⟩
  have hold : ∀ a b : Nat, Before kM kE a b → get2 tbl a b = get2 os.2.tbl a b := by
    intro a b hb
    apply t4
    unfold Before at hb
    by_cases h : a = kE
    · right; omega
    · exact Or.inl h
  have hcase : ∀ a b : Nat, Before kM (kE + 1) a b → Before kM kE a b ∨ (a = kE ∧ b = kM) := by
    intro a b hb
    unfold Before at hb ⊢
    omega
  have hmono : ∀ a b : Nat, Before kM kE a b → Before kM (kE + 1) a b := by
    intro a b hb; unfold Before at hb ⊢; omega
  have hself : Before kM (kE + 1) kE kM := by unfold Before; omega
  have t3' : get2 tbl kE kM = some ⟨f.chi2, some (coeffOf op k), mi⟩ := t3
  refine ⟨t1.trans hR.tlen, t2 _ hR.rlen, ?_, ?_⟩
  · intro a b ha hb
    show ∃ e f k i, get2 tbl a b = some e ∧ _
    rcases hcase a b hb with hb | ⟨rfl, rfl⟩
    · rw [hold a b hb]; exact hR.done a b ha hb
    · exact ⟨_, f, k, mi, t3', hnew⟩
  · right
    rcases hR.best with ⟨b1, b2, b3⟩ | ⟨a, b, e, f0, k0, i0, b1, b2, b3, b4, b5, b6⟩
    · refine ⟨kE, kM, _, f, k, mi, hkE, hself, t3', hnew, ?_, ?_⟩
      · simp [b3, coeffOf]
      · intro a' b' e' ha' hb' hg'
        have hab : a' = kE ∧ b' = kM := by unfold Before at hb'; omega
        obtain ⟨rfl, rfl⟩ := hab
        have hg' : get2 tbl a' b' = some e' := hg'
        rw [t3'] at hg'; cases hg'
        refine ⟨le_rfl, fun hx => ?_⟩
        unfold Before at hx; omega
    · by_cases hlt : f.chi2 < f0.chi2
      · refine ⟨kE, kM, _, f, k, mi, hkE, hself, t3', hnew, ?_, ?_⟩
        · simp [b5, hlt, coeffOf]
        · intro a' b' e' ha' hb' hg'
          have hg' : get2 tbl a' b' = some e' := hg'
          rcases hcase a' b' hb' with hb | ⟨rfl, rfl⟩
          · rw [hold a' b' hb] at hg'
            have := (b6 a' b' e' ha' hb hg').1
            exact ⟨by linarith, fun _ => by linarith⟩
          · rw [t3'] at hg'; cases hg'
            refine ⟨le_rfl, fun hx => ?_⟩
            unfold Before at hx; omega
      · refine ⟨a, b, e, f0, k0, i0, b1, hmono _ _ b2, ?_, b4, ?_, ?_⟩
        · show get2 tbl a b = _
          rw [hold a b b2]; exact b3
        · simp [b5, hlt]
        · intro a' b' e' ha' hb' hg'
          have hg' : get2 tbl a' b' = some e' := hg'
          rcases hcase a' b' hb' with hb | ⟨rfl, rfl⟩
          · rw [hold a' b' hb] at hg'
            exact b6 a' b' e' ha' hb hg'
          · rw [t3'] at hg'; cases hg'
            refine ⟨by push Not at hlt; exact hlt, fun hx => ?_⟩
            unfold Before at hx b2; omega

theorem Res.foldN_inv_ok {σ : Type} {f : Nat → σ → Res σ} (P : Nat → σ → Prop) (n : Nat) :
    ∀ (k : Nat) (s s' : σ), P k s → (∀ i s s', k ≤ i → i < k + n → P i s → f i s = .ok s' → P (i + 1) s') →
    Res.foldN f k n s = .ok s' → P (k + n) s' := by
  induction n with
  | zero => intro k s s' h _ he; cases he; exact h
  | succ n ih =>
    intro k s s' h hstep he
    obtain ⟨s1, e1, e2⟩ := Res.bind_eq_ok.1 (show (f k s >>= fun s' => Res.foldN f (k + 1) n s') = .ok s' from he)
    rw [show k + (n + 1) = k + 1 + n by omega]
    exact ih (k + 1) s1 s' (hstep k s s1 le_rfl (by omega) h e1) (fun i a b h1 h2 => hstep i a b (by omega) (by omega)) e2

/-- Without a sample in the IGM range the IGM index does not matter. -/
theorem allSamples_unaffected {op : Opt K} {obs : List (Obs K)} (hobs : ∀ o ∈ obs, o.Ok) (h : ¬ Affected op obs)
    (d : K → K) (i i' : Int) : allSamples obs d (igmFun op i) = allSamples obs d (igmFun op i') := by
  cases hig : op.igm with
  | false => rw [igmFun_off hig i i']
  | true =>
    unfold allSamples
    have : ∀ o ∈ obs, o.all d (igmFun op i) = o.all d (igmFun op i') := by
      intro o ho
      have hok := hobs o ho
      have hle := hok.le
      unfold Obs.all
      apply samples_congr
      intro j h1 h2
      have hj : j < o.axis.length := by have := hok.lt; omega
      have hw : o.axis[j]? = some o.axis[j] := List.getElem?_eq_getElem hj
      have hgt : op.c.igmMax < o.axis[j]?.getD 0 := by
        by_contra hc
        apply h
        refine ⟨hig, o, ho, le_trans ?_ (not_lt.1 hc)⟩
        have hk : o.kStart < o.axis.length := by omega
        rw [hw, List.getElem?_eq_getElem hk]
        simp only [Option.getD_some]
        rcases Nat.lt_or_eq_of_le h1 with h3 | h3
        · exact List.pairwise_iff_getElem.1 hok.sorted _ _ hk hj h3
        · simp only [h3]; exact le_rfl
      have e : ∀ i, igmFun op i (o.axis[j]?.getD 0) = 1 := by
        intro i; unfold igmFun; rw [if_neg]; rintro ⟨-, -, q⟩; exact absurd q (not_le.2 hgt)
      rw [e, e]
    rw [List.flatMap_congr this]

theorem isFit_unaffected {op : Opt K} {obs : List (Obs K)} (hobs : ∀ o ∈ obs, o.Ok) (h : ¬ Affected op obs) {k i i' : Int}
    {f : Fit K} (hf : IsFit op obs k i f) : IsFit op obs k i' f := by
  unfold IsFit at hf ⊢
  rw [allSamples_unaffected hobs h _ i' i]; exact hf

/-- What the fit must return: the table of the chi2 of the least squares fits of all the configurations, and the first
configuration of smallest chi2. -/
structure FitTable (op : Opt K) (obs : List (Obs K)) (r : Result K) : Prop where
  rows : r.tbl.length = op.ebmv.length
  cols : ∀ row ∈ r.tbl, row.length = op.meiksin.length
  entry : ∀ (a b : Nat) (k i : Int), op.ebmv[a]? = some k → op.meiksin[b]? = some i →
    ∃ f e, get2 r.tbl a b = some e ∧ IsFit op obs k i f ∧ e.chi2 = f.chi2 ∧ e.ebmv = some (coeffOf op k) ∧
      (Affected op obs → e.igm = i) ∧ (¬ Affected op obs → op.meiksin[0]? = some e.igm)
  best : ∃ (a b : Nat) (k i : Int) (f : Fit K) (m : Best K), op.ebmv[a]? = some k ∧ op.meiksin[b]? = some i ∧
    IsFit op obs k i f ∧ r.best = some m ∧ m.fit = f ∧ m.ebmv = coeffOf op k ∧
    (Affected op obs → m.igm = i) ∧ (¬ Affected op obs → m.igm = -1) ∧
    ∀ (a' b' : Nat) (e' : Entry K), get2 r.tbl a' b' = some e' →
      f.chi2 ≤ e'.chi2 ∧ (b' < b ∨ (b' = b ∧ a' < a) → f.chi2 < e'.chi2)

theorem get2_lt {α : Type} {tbl : List (List α)} {a b : Nat} {e : α} (h : get2 tbl a b = some e) :
    a < tbl.length ∧ ∃ row ∈ tbl, tbl[a]? = some row ∧ b < row.length := by
  unfold get2 at h
  obtain ⟨row, h1, h2⟩ := Option.bind_eq_some_iff.1 h
  refine ⟨(List.getElem?_eq_some_iff.1 h1).1, row, List.mem_of_getElem? h1, h1, (List.getElem?_eq_some_iff.1 h2).1⟩

theorem copyFirst_get (row : List (Entry K)) (b : Nat) (hb : b < row.length) : (copyFirst row)[b]? = row[0]? := by
  cases row with
  | nil => simp at hb
  | cons e l =>
    cases b with
    | zero => rfl
    | succ b =>
      simp only [copyFirst, List.getElem?_cons_succ, List.getElem?_map, List.getElem?_cons_zero]
      have : b < l.length := by simpa using hb
      simp [this]

theorem copyFirst_length (row : List (Entry K)) : (copyFirst row).length = row.length := by
  cases row <;> simp [copyFirst]

theorem get2_copy {tbl : List (List (Entry K))} {a b : Nat} {n : Nat} (hr : ∀ row ∈ tbl, row.length = n) (hb : b < n) :
    get2 (tbl.map copyFirst) a b = get2 tbl a 0 := by
  unfold get2
  rw [List.getElem?_map]
  cases h : tbl[a]? with
  | none => rfl
  | some row =>
    simp only [Option.map_some, Option.bind_some]
    exact copyFirst_get row b (by rw [hr row (List.mem_of_getElem? h)]; exact hb)

/-- The state before iteration `kM` of the loop on the IGM indices. -/
structure LInv (op : Opt K) (obs : List (Obs K)) (hd hi : Bool) (kM : Nat) (skip : Bool) (os : List (Slot K) × Result K) :
    Prop where
  slots : List.Forall₂ (fun o s => ∃ i, SlotInv op hd hi i kM 0 o s) obs os.1
  res : RInv op obs skip kM 0 os.2
  first : kM = 0 → skip = true
  next : 0 < kM → (skip = true ↔ ¬ Affected op obs)
  le : skip = true → kM ≤ 1

/-- The IGM part of an iteration. -/
def igmPart (op : Opt K) (kM : Nat) (skip : Bool) (mi : Int) (ss : List (Slot K)) : Res (Bool × List (Slot K)) :=
  if op.igm then
    mapSlots (igmSlot op mi) ss >>= fun r => .ok (if kM = 0 ∧ r.1.any id then false else skip, r.2)
  else .ok (skip, ss)

theorem igmPart_inv {op : Opt K} {obs : List (Obs K)} (hobs : ∀ o ∈ obs, o.Ok) {hd hi : Bool} {kM : Nat} {skip : Bool}
    {os : List (Slot K) × Result K} (h : LInv op obs hd hi kM skip os) {mi : Int} {s : Bool × List (Slot K)}
    (hs : igmPart op kM skip mi os.1 = .ok s) :
    ∃ i, List.Forall₂ (SlotInv op hd hi i kM 0) obs s.2 ∧ (op.igm = true → i = mi) ∧ (s.1 = true ↔ ¬ Affected op obs) ∧
      RInv op obs s.1 kM 0 os.2 := by
  obtain ⟨hS, hR, h1, h2, h3⟩ := h
  have key : ∃ i, List.Forall₂ (SlotInv op hd hi i kM 0) obs s.2 ∧ (op.igm = true → i = mi) ∧
      (s.1 = true ↔ ¬ Affected op obs) := by
    unfold igmPart at hs
    cases hig : op.igm with
    | false =>
      rw [hig] at hs
      simp only [Bool.false_eq_true, if_false, Res.ok.injEq] at hs
      subst hs
      refine ⟨-1, hS.imp ?_, fun hx => (by cases hx), ?_⟩
      · rintro o s ⟨i, ⟨kd, hkd⟩, hout⟩
        have := hkd.igmOff hig
        subst this
        exact ⟨⟨kd, hkd⟩, hout⟩
      · have hA : ¬ Affected op obs := fun hx => by rw [hx.1] at hig; cases hig
        refine ⟨fun _ => hA, fun _ => ?_⟩
        rcases Nat.eq_zero_or_pos kM with hz | hz
        · exact h1 hz
        · exact (h2 hz).2 hA
    | true =>
      rw [hig] at hs
      simp only [if_true] at hs
      obtain ⟨rr, r1, r2⟩ := Res.bind_eq_ok.1 hs
      cases r2
      obtain ⟨m1, m2⟩ := mapSlots_ok (R' := SlotInv op hd hi mi kM 0)
        (Q := fun o b => b = decide (o.axis[o.kStart]?.getD 0 ≤ op.c.igmMax)) (bs := rr.1) (ss' := rr.2) (by
          rintro o ho s b s' ⟨i, ⟨kd, hkd⟩, hout⟩ hsl
          obtain ⟨q1, q2, q3⟩ := hkd.igmStep (hobs o ho) hig hsl
          exact ⟨⟨⟨kd, q1⟩, by rw [q2]; exact hout⟩, q3⟩) hS r1
      refine ⟨mi, m1, fun _ => rfl, ?_⟩
      have hany : rr.1.any id = true ↔ ∃ o ∈ obs, o.axis[o.kStart]?.getD 0 ≤ op.c.igmMax := by
        clear hs r1 m1 hS
        revert m2
        generalize rr.1 = bs
        intro m2
        clear hobs hR h2
        induction m2 with
        | nil => simp
        | cons q _ ihq =>
          simp only [List.any_cons, id_eq, Bool.or_eq_true, ihq, List.mem_cons, exists_eq_or_imp, q, decide_eq_true_eq]
      have hA : Affected op obs ↔ rr.1.any id = true := by
        rw [hany]; unfold Affected; simp [hig]
      rcases Nat.eq_zero_or_pos kM with hz | hz
      · simp only [hz, true_and]
        rw [hA, h1 hz]
        by_cases hb : rr.1.any id = true
        · simp [hb]
        · simp [hb]
      · simp only [show ¬ kM = 0 by omega, false_and, if_false]
        exact h2 hz
  obtain ⟨i, k1, k2, k3⟩ := key
  refine ⟨i, k1, k2, k3, ?_⟩
  rcases Nat.eq_zero_or_pos kM with hz | hz
  · refine ⟨hR.tlen, hR.rlen, hR.done, ?_⟩
    rcases hR.best with hb | ⟨a, b, e, f, k, i, b1, b2, _⟩
    · exact Or.inl hb
    · unfold Before at b2; omega
  · have : s.1 = skip := by
      have := (k3.trans (h2 hz).symm)
      cases hs1 : s.1 <;> cases hs2 : skip <;> simp_all
    rw [this]; exact hR

theorem next_inv {op : Opt K} {obs : List (Obs K)} (hebmv : op.ebmv ≠ []) {hd hi : Bool} {kM : Nat} {skip : Bool}
    {os os' : List (Slot K) × Result K} (h : LInv op obs hd hi kM skip os) (hc : ¬ (0 < kM ∧ skip = true)) {i : Int}
    {s1 : Bool} (k3 : s1 = true ↔ ¬ Affected op obs)
    (l1 : List.Forall₂ (SlotInv op hd hi i kM op.ebmv.length) obs os'.1) (l2 : RInv op obs s1 kM op.ebmv.length os'.2) :
    LInv op obs hd hi (kM + 1) s1 os' := by
  have hE : 0 < op.ebmv.length := List.length_pos_iff.2 hebmv
  refine ⟨l1.imp ?_, ?_, by omega, fun _ => k3, ?_⟩
  · rintro o sl ⟨q1, q2⟩
    refine ⟨i, q1, fun hfa => ⟨(q2 hfa).1, fun hig a k hk _ => (q2 hfa).2 hig a k hk ?_⟩⟩
    right; exact (List.getElem?_eq_some_iff.1 hk).1
  · have hB : ∀ a b : Nat, a < op.ebmv.length → (Before (kM + 1) 0 a b ↔ Before kM op.ebmv.length a b) := by
      intro a b ha; unfold Before; omega
    refine ⟨l2.tlen, l2.rlen, fun a b ha hb => l2.done a b ha ((hB a b ha).1 hb), Or.inr ?_⟩
    rcases l2.best with ⟨_, q, _⟩ | ⟨a, b, e, f, k, i, b1, b2, b3, b4, b5, b6⟩
    · omega
    · exact ⟨a, b, e, f, k, i, b1, (hB a b b1).2 b2, b3, b4, b5, fun a' b' e' ha' hb' => b6 a' b' e' ha' ((hB a' b' ha').1 hb')⟩
  · intro hsk
    rcases Nat.eq_zero_or_pos kM with hz | hz
    · omega
    · exfalso
      exact hc ⟨hz, (h.next hz).2 (k3.1 hsk)⟩

theorem LInv.igmOff {op : Opt K} {obs : List (Obs K)} {hd hi : Bool} {kM : Nat} {skip : Bool}
    {os : List (Slot K) × Result K} (h : LInv op obs hd hi kM skip os) (hc : ¬ (0 < kM ∧ skip = true)) :
    op.igm = false → kM = 0 := by
  intro hig
  by_contra hz
  have hz : 0 < kM := Nat.pos_of_ne_zero hz
  exact hc ⟨hz, (h.next hz).2 (fun hx => by rw [hx.1] at hig; cases hig)⟩

/-- The loop on the IGM indices. -/
theorem igmLoop_inv {sq : K → K} (hsq : IsSqrt sq) {op : Opt K} {obs : List (Obs K)} (hne : obs ≠ [])
    (hobs : ∀ o ∈ obs, o.Ok) (hlast : op.fast = true → op.igm = true → ∀ o ∈ obs, op.c.igmMax < o.axis[o.kEnd]?.getD 0)
    (hebmv : op.ebmv ≠ []) {hd hi : Bool} (n : Nat) :
    ∀ (kM : Nat) (skip : Bool) (os : List (Slot K) × Result K) (r : Result K), kM + n = op.meiksin.length → 0 < kM + n →
      LInv op obs hd hi kM skip os →
      igmLoop sq op kM n skip os = .ok r → FitTable op obs r := by
  have hE : 0 < op.ebmv.length := List.length_pos_iff.2 hebmv
  induction n with
  | zero =>
    intro kM skip os r hn hpos hL h
    obtain ⟨hS, hR, h1, h2, h3⟩ := id hL
    simp only [igmLoop, Res.ok.injEq] at h
    subst h
    have hk : 0 < kM := by omega
    have hall : ∀ a b : Nat, b < op.meiksin.length → Before kM 0 a b := by intro a b hb; left; omega
    refine ⟨hR.tlen, hR.rlen, fun a b k i ha hb => ?_, ?_⟩
    · obtain ⟨e, f, k', i', g1, g2, g3, g4, g5⟩ := hR.done a b (List.getElem?_eq_some_iff.1 ha).1
        (hall a b (List.getElem?_eq_some_iff.1 hb).1)
      rw [ha] at g2; cases g2
      rw [hb] at g3; cases g3
      refine ⟨f, e, g1, g4, by rw [g5], by rw [g5], fun _ => by rw [g5], fun hc => ?_⟩
      have := h3 ((h2 hk).2 hc)
      have hb0 : b = 0 := by have := (List.getElem?_eq_some_iff.1 hb).1; omega
      rw [g5, ← hb, hb0]
    · rcases hR.best with ⟨b1, -⟩ | ⟨a, b, e, f, k, i, b1, b2, b3, ⟨c1, c2, c3, c4⟩, b5, b6⟩
      · omega
      · refine ⟨a, b, k, i, f, _, c1, c2, c3, b5, rfl, rfl, fun hA => ?_, fun hA => ?_, fun a' b' e' hg => ?_⟩
        · have : skip = false := by by_contra hc; exact (h2 hk).1 (by simpa using hc) hA
          simp [this]
        · simp [(h2 hk).2 hA]
        · obtain ⟨q1, row, q2, q3, q4⟩ := get2_lt hg
          exact b6 a' b' e' (by rw [← hR.tlen]; exact q1) (hall a' b' (by rw [hR.rlen row q2] at q4; exact q4)) hg
  | succ n ih =>
    intro kM skip os r hn hpos hL h
    obtain ⟨hS, hR, h1, h2, h3⟩ := id hL
    unfold igmLoop at h
    split at h
    · rename_i hc
      obtain ⟨hk, hsk⟩ := hc
      have hkM1 : kM = 1 := by have := h3 hsk; omega
      have hA : ¬ Affected op obs := (h2 hk).1 hsk
      cases h
      have hm0 : 0 < op.meiksin.length := by omega
      refine ⟨by simp [hR.tlen], ?_, fun a b k i ha hb => ?_, ?_⟩
      · intro row hrow
        obtain ⟨row', hr', rfl⟩ := List.mem_map.1 hrow
        rw [copyFirst_length]; exact hR.rlen row' hr'
      · obtain ⟨e, f, k', i', g1, g2, g3, g4, g5⟩ := hR.done a 0 (List.getElem?_eq_some_iff.1 ha).1 (Or.inl hk)
        rw [ha] at g2; cases g2
        refine ⟨f, e, ?_, isFit_unaffected hobs hA g4, by rw [g5], by rw [g5], fun hx => absurd hx hA, fun _ => by rw [g5]; exact g3⟩
        rw [get2_copy hR.rlen (List.getElem?_eq_some_iff.1 hb).1]
        exact g1
      · rcases hR.best with ⟨b1, -⟩ | ⟨a, b, e, f, k, i, b1, b2, b3, ⟨c1, c2, c3, c4⟩, b5, b6⟩
        · omega
        · refine ⟨a, b, k, i, f, _, c1, c2, c3, b5, rfl, rfl, fun hx => absurd hx hA, fun _ => by simp [hsk], fun a' b' e' hg => ?_⟩
          obtain ⟨q1, row, q2, q3, q4⟩ := get2_lt hg
          have hb' : b' < op.meiksin.length := by
            obtain ⟨row', hr', rfl⟩ := List.mem_map.1 q2
            rw [copyFirst_length, hR.rlen row' hr'] at q4; exact q4
          rw [List.length_map, hR.tlen] at q1
          have hg' : get2 os.2.tbl a' 0 = some e' := by
            rw [← get2_copy (a := a') hR.rlen hb']; exact hg
          obtain ⟨q5, q6⟩ := b6 a' 0 e' q1 (Or.inl hk) hg'
          refine ⟨q5, fun hlt => q6 ?_⟩
          unfold Before at b2 ⊢
          omega
    · rename_i hc
      obtain ⟨mi, hmi, h⟩ := Res.bind_eq_ok.1 h
      have hmi := Res.at_eq_ok.1 hmi
      obtain ⟨s, hs, h⟩ := Res.bind_eq_ok.1 h
      obtain ⟨os', hf, h⟩ := Res.bind_eq_ok.1 h
      obtain ⟨i, k1, k2, k3, hR'⟩ := igmPart_inv hobs hL hs
      have hloop := Res.foldN_inv_ok
        (P := fun kE (os : List (Slot K) × Result K) => List.Forall₂ (SlotInv op hd hi i kM kE) obs os.1 ∧ RInv op obs s.1 kM kE os.2)
        op.ebmv.length 0 (s.2, os.2) os' ⟨k1, hR'⟩ (fun kE a b _ _ hab hst =>
          dustStep_inv hsq hne hobs hlast hmi k2 (hL.igmOff hc) hab.1 hab.2 hst) hf
      rw [Nat.zero_add] at hloop
      obtain ⟨l1, l2⟩ := hloop
      exact ih (kM + 1) s.1 os' r (by omega) (by omega) (next_inv hebmv hL hc k3 l1 l2) h

/-! ## The theorem -/

/-- The observation as given to the fit, the rebinned template having the extinction objects told by `hd0` and `hi0`. -/
def Obs.slot (hd0 hi0 : Bool) (o : Obs K) : Slot K :=
  ⟨o.flux, o.err, o.mask, o.kStart, o.kEnd, Tpl.make o.axis o.base hd0 hi0, []⟩

theorem initSlot_inv {op : Opt K} {hd0 hi0 hd hi : Bool} {o : Obs K} (ho : o.Ok) (hact : op.dust = true ∨ op.igm = true)
    {u : Unit} {s' : Slot K} (h : initSlot op hd hi (o.slot hd0 hi0) = .ok (u, s')) :
    Rel op (hd0 || hd) (hi0 || hi) o (-1) (-1) s' := by
  unfold initSlot at h
  simp only at h
  obtain ⟨u', h1, h2⟩ := Res.bind_eq_ok.1 h
  cases h2
  have h0 := Tpl.inv_make op.c o.axis o.base (hd0 || hd) (hi0 || hi) ho.base_len
  have := Tpl.inv_step op.c ho.sorted h0 (.init o.kStart o.kEnd op.z) h1
  refine ⟨rfl, rfl, rfl, rfl, rfl, ?_, fun _ => rfl, fun _ => rfl, fun _ hx => by omega⟩
  simpa [Tpl.step, Tpl.Spec.step, hact, Tpl.make, Obs.slot] using this

theorem forall2_slots {R : Obs K → Slot K → Prop} {f : Obs K → Slot K} (obs : List (Obs K)) (h : ∀ o ∈ obs, R o (f o)) :
    List.Forall₂ R obs (obs.map f) := by
  induction obs with
  | nil => exact .nil
  | cons o obs ih => exact .cons (h o (by simp)) (ih (fun o ho => h o (by simp [ho])))

theorem start_inv {op : Opt K} {obs : List (Obs K)} {hd hi : Bool} {big : K} {os : List (Slot K)}
    (hos : List.Forall₂ (fun o s => Rel op hd hi o (-1) (-1) s) obs os) :
    LInv op obs hd hi 0 true
      (if op.fast then os.map (fun o => { o with out := List.replicate op.ebmv.length Sums.zero }) else os,
       ⟨none, List.replicate op.ebmv.length (List.replicate op.meiksin.length ⟨big, none, -1⟩)⟩) := by
  refine ⟨?_, ⟨by simp, ?_, ?_, Or.inl ⟨rfl, rfl, rfl⟩⟩, fun _ => rfl, by omega, fun _ => by omega⟩
  · cases hf : op.fast with
    | false =>
      simp only [Bool.false_eq_true, if_false]
      refine hos.imp ?_
      intro o s hs
      exact ⟨-1, ⟨-1, hs⟩, fun hx => by rw [hf] at hx; cases hx⟩
    | true =>
      simp only [if_true]
      rw [List.forall₂_map_right_iff]
      refine hos.imp ?_
      intro o s hs
      refine ⟨-1, ⟨-1, ⟨hs.flux, hs.err, hs.mask, hs.kStart, hs.kEnd, hs.inv, hs.dustOff, hs.igmOff, hs.igmHas⟩⟩, fun _ => ⟨by simp, ?_⟩⟩
      intro _ a k _ hx
      omega
  · intro row hrow
    rw [List.eq_of_mem_replicate hrow, List.length_replicate]
  · intro a b _ hb
    unfold Before at hb; omega

/-- **C65, IGM range.** The IGM is applied (when asked for) exactly when at least one observation starts, in the rest frame, at
or below Lyman alpha. -/
theorem C65_igm_range (los : List K) : igmIsInRange los = true ↔ ∃ lo ∈ los, lo ≤ 1216 := by
  unfold igmIsInRange
  simp

/-- The configuration of a fit of a template with the given options (`basicFit`): the IGM is applied when asked for and
when the first rest wavelength of some observation is at most 1216, priors when there is one for each dust value. -/
def theOpt (c : Tpl.Curves K) (z : K) (ebmvValue : Int → K) (hasDust : Bool) (nEbmv : Nat) (thr : K) (optIgm optDust : Bool)
    (priors : List (Prior K)) (meiksin ebmv : List Int) (los : List K) : Opt K :=
  ⟨c, z, ebmvValue, optDust, optIgm && igmIsInRange los, decide (1 < meiksin.length), thr, meiksin, ebmv,
    decide (priors ≠ []) && hasDust && decide (priors.length = nEbmv), priors⟩

/-- **C65** Whenever the fit of a template at one redshift returns, its table holds the chi2 of the least squares fit of
each dust and IGM configuration, and the reported fit, E(B-V) and IGM index are those of the first configuration of
smallest chi2. With several IGM curves the last sample of each fit range must be above the IGM range. -/
theorem C65_fit_partial {sq : K → K} (hsq : IsSqrt sq) {big : K} {c : Tpl.Curves K} {z : K} {ebmvValue : Int → K}
    {hasDust hasIgm : Bool} {nEbmv : Nat} {thr : K} {optIgm optDust : Bool} {priors : List (Prior K)}
    {meiksin ebmv : List Int} {los : List K} {hd0 hi0 : Bool} {obs : List (Obs K)} (hne : obs ≠ []) (hobs : ∀ o ∈ obs, o.Ok)
    (hlast : 1 < meiksin.length → optIgm = true → igmIsInRange los = true → ∀ o ∈ obs, c.igmMax < o.axis[o.kEnd]?.getD 0)
    {r : Result K}
    (h : basicFit sq big c z ebmvValue hasDust nEbmv hasIgm thr optIgm optDust priors meiksin ebmv los
      (obs.map (Obs.slot hd0 hi0)) = .ok r) :
    FitTable (theOpt c z ebmvValue hasDust nEbmv thr optIgm optDust priors meiksin ebmv los) obs r := by
  unfold basicFit at h
  split at h
  · cases h
  rename_i hebmv
  simp only at h
  change ((if optDust || (optIgm && igmIsInRange los) then
      mapSlots (initSlot (theOpt c z ebmvValue hasDust nEbmv thr optIgm optDust priors meiksin ebmv los) hasDust hasIgm)
        (obs.map (Obs.slot hd0 hi0)) >>= fun r => .ok r.2 else .ok (obs.map (Obs.slot hd0 hi0))) >>= _) = _ at h
  obtain ⟨os, h1, h⟩ := Res.bind_eq_ok.1 h
  obtain ⟨r', h2, h3⟩ := Res.bind_eq_ok.1 h
  have hr : r' = r := by
    split at h3
    · cases h3
    · cases h3; rfl
  subst hr
  set op := theOpt c z ebmvValue hasDust nEbmv thr optIgm optDust priors meiksin ebmv los with hop
  have hmne : 0 < meiksin.length := by
    by_contra hc
    have hm : meiksin = [] := List.length_eq_zero_iff.1 (by omega)
    rw [hm] at h2
    simp only [List.length_nil, igmLoop, Res.ok.injEq] at h2
    have hb : r'.best = none := by rw [← h2]
    rw [hb] at h3
    cases h3
  have hrel : ∃ hd hi, List.Forall₂ (fun o s => Rel op hd hi o (-1) (-1) s) obs os := by
    by_cases hact : (optDust || (optIgm && igmIsInRange los)) = true
    · rw [if_pos hact] at h1
      obtain ⟨rr, e1, e2⟩ := Res.bind_eq_ok.1 h1
      cases e2
      have hact' : op.dust = true ∨ op.igm = true := by
        rw [Bool.or_eq_true] at hact; exact hact
      refine ⟨hd0 || hasDust, hi0 || hasIgm, (mapSlots_ok (R := fun o s => s = o.slot hd0 hi0) (Q := fun _ _ => True)
        (bs := rr.1) (ss' := rr.2) ?_ (forall2_slots obs (fun o _ => rfl)) e1).1⟩
      rintro o ho s b s' rfl hf
      exact ⟨initSlot_inv (hobs o ho) hact' hf, trivial⟩
    · rw [if_neg hact] at h1
      cases h1
      have hact' : ¬ (op.dust = true ∨ op.igm = true) := by
        rw [Bool.or_eq_true] at hact; exact hact
      refine ⟨hd0, hi0, forall2_slots obs (fun o ho => ?_)⟩
      have h0 := Tpl.inv_make op.c o.axis o.base hd0 hi0 (hobs o ho).base_len
      refine ⟨rfl, rfl, rfl, rfl, rfl, ?_, fun _ => rfl, fun _ => rfl, fun _ hx => by omega⟩
      rw [if_neg hact']; exact h0
  obtain ⟨hd, hi, hrel⟩ := hrel
  have hstart := start_inv (big := big) hrel
  refine igmLoop_inv hsq hne hobs ?_ hebmv meiksin.length 0 true _ r' (by simp [hop, theOpt]) (by omega) hstart h2
  intro q1 q2
  apply hlast
  · simpa [hop, theOpt] using q1
  · have : (optIgm && igmIsInRange los) = true := q2
    rw [Bool.and_eq_true] at this; exact this.1
  · have : (optIgm && igmIsInRange los) = true := q2
    rw [Bool.and_eq_true] at this; exact this.2

end TplFit
end Amazed
