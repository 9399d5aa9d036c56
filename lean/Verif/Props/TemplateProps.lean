import Mathlib.Data.Rat.Defs
import Mathlib.Algebra.Order.Field.Rat
import Mathlib.Tactic.Ring
import Mathlib.Tactic.Linarith
import Verif.Model.Template

/-! # C42: dust and IGM extinction of a template -/

set_option linter.unusedSectionVars false

namespace Amazed
namespace Tpl

section
variable {K : Type} [Field K] [LinearOrder K] [IsStrictOrderedRing K]

/-- Specification: what a user asked for. `base` is the flux without extinction, `ext` the last configuration
`(kstart, kend, redshift)` with the last dust index and the last IGM index applied since (-1 for none). -/
structure Spec (K : Type) where
  base : List K
  ext : Option (Int × Int × K × Int × Int)

/-- Specification: effect of one call. -/
def Spec.step (s : Spec K) : Op K → Spec K
  | .init a b z => { s with ext := some (a, b, z, -1, -1) }
  | .dust k => { s with ext := s.ext.map fun (a, b, z, _, i) => (a, b, z, k, i) }
  | .igm i => { s with ext := s.ext.map fun (a, b, z, k, _) => (a, b, z, k, i) }
  | .amplitude a => { s with base := s.base.map (· * a) }
  | .disable => { s with ext := none }
  | .setFlux l => ⟨l, none⟩

/-- Specification: the dust coefficient of sample `k`, of wavelength `w`. -/
def IsDust (c : Curves K) (ext : Option (Int × Int × K × Int × Int)) (k : Nat) (w d : K) : Prop :=
  match ext with
  | none => d = 1
  | some (a, b, _, kd, _) => if a ≤ k ∧ k ≤ b ∧ 0 ≤ kd then c.dust kd w = .ok d else d = 1

/-- Specification: the IGM coefficient of sample `k`, of wavelength `w`. -/
def IsIgm (c : Curves K) (hasIgm : Bool) (ext : Option (Int × Int × K × Int × Int)) (k : Nat) (w g : K) : Prop :=
  match ext with
  | none => g = 1
  | some (a, b, z, _, i) =>
    if hasIgm = true ∧ a ≤ k ∧ k ≤ b ∧ w ≤ c.igmMax ∧ 0 ≤ i then ∃ zi, c.zIndex z = some zi ∧ c.igm zi i w = .ok g
    else g = 1

theorem applyLoop_spec {axis noExt flux coeff other : List K} {f : K → Res K} {a b : Nat} {d' f' : List K}
    (h : applyLoop axis noExt flux coeff other f a b = .ok (d', f')) :
    d'.length = coeff.length ∧ f'.length = flux.length ∧
    (∀ k, k < coeff.length → a ≤ k → k ≤ b → ∃ w d, axis[k]? = some w ∧ f w = .ok d ∧ d'[k]? = some d) ∧
    (∀ k, k < coeff.length → ¬ (a ≤ k ∧ k ≤ b) → d'[k]? = coeff[k]?) ∧
    (∀ k, k < flux.length → a ≤ k → k ≤ b →
      ∃ x p q, noExt[k]? = some x ∧ d'[k]? = some p ∧ other[k]? = some q ∧ f'[k]? = some (x * p * q)) ∧
    (∀ k, k < flux.length → ¬ (a ≤ k ∧ k ≤ b) → f'[k]? = flux[k]?) := by
  unfold applyLoop at h
  obtain ⟨d, h1, h⟩ := Res.bind_eq_ok.1 h
  obtain ⟨f2, h2, h⟩ := Res.bind_eq_ok.1 h
  cases h
  refine ⟨Res.tab_length _ h1, Res.tab_length _ h2, fun k hk ha hb => ?_, fun k hk hn => ?_, fun k hk ha hb => ?_,
    fun k hk hn => ?_⟩
  · obtain ⟨v, e1, e2⟩ := Res.tab_get _ h1 k hk
    rw [Res.at_of_lt hk, Res.bind_ok, if_pos ⟨ha, hb⟩] at e2
    obtain ⟨w, e3, e4⟩ := Res.bind_eq_ok.1 e2
    exact ⟨w, v, Res.at_eq_ok.1 e3, e4, e1⟩
  · obtain ⟨v, e1, e2⟩ := Res.tab_get _ h1 k hk
    rw [Res.at_of_lt hk, Res.bind_ok, if_neg hn] at e2
    cases e2
    rw [e1, List.getElem?_eq_getElem hk]
  · obtain ⟨v, e1, e2⟩ := Res.tab_get _ h2 k hk
    rw [Res.at_of_lt hk, Res.bind_ok, if_pos ⟨ha, hb⟩] at e2
    obtain ⟨x, e3, e2⟩ := Res.bind_eq_ok.1 e2
    obtain ⟨p, e4, e2⟩ := Res.bind_eq_ok.1 e2
    obtain ⟨q, e5, e2⟩ := Res.bind_eq_ok.1 e2
    cases e2
    exact ⟨x, p, q, Res.at_eq_ok.1 e3, Res.at_eq_ok.1 e4, Res.at_eq_ok.1 e5, e1⟩
  · obtain ⟨v, e1, e2⟩ := Res.tab_get _ h2 k hk
    rw [Res.at_of_lt hk, Res.bind_ok, if_neg hn] at e2
    cases e2
    rw [e1, List.getElem?_eq_getElem hk]

/-- On a sorted axis, the IGM end index bounds exactly the samples at or below the largest wavelength. -/
theorem igmEndIndex_spec (c : Curves K) {axis : List K} (hs : axis.Pairwise (· ≤ ·)) {a b : Nat} (hb : b < axis.length)
    (hab : a ≤ b) (k : Nat) (w : K) (hk : axis[k]? = some w) (hak : a ≤ k) (hkb : k ≤ b) :
    w ≤ c.igmMax ↔ ∃ e, igmEndIndex c axis a b = some e ∧ k ≤ e := by
  unfold igmEndIndex
  simp only
  set l := (axis.take (b + 1)).drop a with hl
  have hlen : l.length = b + 1 - a := by rw [hl, List.length_drop, List.length_take]; omega
  have hget : ∀ j (hj : j < l.length), ∃ h : a + j < axis.length, l[j] = axis[a + j] := by
    intro j hj
    refine ⟨by omega, ?_⟩
    simp [hl]
  obtain ⟨hka, rfl⟩ := List.getElem?_eq_some_iff.1 hk
  have hkl : k - a < l.length := by omega
  have e := (hget (k - a) hkl).2
  simp only [show a + (k - a) = k by omega] at e
  constructor
  · intro hw
    have hlt : k - a < upperBound l c.igmMax := by
      by_contra hge
      have hu : upperBound l c.igmMax < l.length := by omega
      have h1 := lt_getElem_upperBound hu
      obtain ⟨h2, h3⟩ := hget _ hu
      rw [h3] at h1
      have h4 : axis[a + upperBound l c.igmMax] ≤ axis[k] := by
        rcases Nat.lt_or_eq_of_le (show a + upperBound l c.igmMax ≤ k by omega) with h | h
        · exact List.pairwise_iff_getElem.1 hs _ _ h2 hka h
        · simp only [h]; exact le_rfl
      exact absurd (lt_of_lt_of_le h1 h4) (not_lt.2 hw)
    rw [if_neg (by omega)]
    exact ⟨_, rfl, by omega⟩
  · rintro ⟨x, hx, hkx⟩
    split at hx
    · cases hx
    · cases hx
      have := le_of_lt_upperBound (l := l) (v := c.igmMax) (i := k - a) (by omega) hkl
      rw [e] at this
      exact this

theorem igmEndIndex_range (c : Curves K) {axis : List K} {a b : Nat} (hb : b < axis.length) (hab : a ≤ b) {e : Nat}
    (h : igmEndIndex c axis a b = some e) : a ≤ e ∧ e ≤ b := by
  unfold igmEndIndex at h
  simp only at h
  have := upperBound_le ((axis.take (b + 1)).drop a) c.igmMax
  rw [List.length_drop, List.length_take] at this
  split at h
  · cases h
  · cases h; omega

/-- The relation between a template and what the user asked for. -/
structure Inv (c : Curves K) (axis : List K) (hd hi : Bool) (t : T K) (s : Spec K) : Prop where
  axis_eq : t.axis = axis
  hd_eq : t.hasDust = hd
  hi_eq : t.hasIgm = hi
  blen : s.base.length = axis.length
  flen : t.flux.length = axis.length
  off : s.ext = none → t.noExt = [] ∧ t.flux = s.base
  on : ∀ a b z kd i, s.ext = some (a, b, z, kd, i) →
    t.noExt = s.base ∧ t.noExt ≠ [] ∧ 0 ≤ a ∧ 0 ≤ b ∧ b < axis.length ∧ t.kstart = a.toNat ∧ t.kend = b.toNat ∧
    t.kDust = kd ∧ t.igmIdx = i ∧ t.dustC.length = axis.length ∧ t.igmC.length = axis.length ∧
    (hi = true → a ≤ b ∧ t.zIdx = c.zIndex z ∧ t.igmEnd = igmEndIndex c axis a.toNat b.toNat) ∧
    (hi = false → t.igmEnd = none) ∧
    (∀ (k : Nat) w, axis[k]? = some w → ∃ x d g, s.base[k]? = some x ∧ t.dustC[k]? = some d ∧ t.igmC[k]? = some g ∧
      IsDust c s.ext k w d ∧ IsIgm c hi s.ext k w g ∧ t.flux[k]? = some (x * d * g))

theorem isDust_none (c : Curves K) (a b : Int) (z : K) (i : Int) (k : Nat) (w : K) :
    IsDust c (some (a, b, z, -1, i)) k w 1 := by
  unfold IsDust; simp

theorem isIgm_none (c : Curves K) (hi : Bool) (a b : Int) (z : K) (kd : Int) (k : Nat) (w : K) :
    IsIgm c hi (some (a, b, z, kd, -1)) k w 1 := by
  unfold IsIgm; simp

theorem getElem_some {α : Type} {l : List α} {k : Nat} (h : k < l.length) : ∃ x, l[k]? = some x :=
  ⟨_, List.getElem?_eq_getElem h⟩

theorem init_ok {c : Curves K} {t : T K} {ka kb : Int} {z : K} (hok : (init c t ka kb z).2 = .ok ()) :
    (0 ≤ ka ∧ ka < t.axis.length) ∧ (0 ≤ kb ∧ kb < t.axis.length) ∧ (t.hasIgm = true → ka ≤ kb) ∧
    (init c t ka kb z).1.axis = t.axis ∧ (init c t ka kb z).1.hasDust = t.hasDust ∧
    (init c t ka kb z).1.hasIgm = t.hasIgm ∧
    (init c t ka kb z).1.flux = (if t.noExt = [] then t.flux else t.noExt) ∧
    (init c t ka kb z).1.noExt = (if t.noExt = [] then t.flux else t.noExt) ∧
    (init c t ka kb z).1.kDust = -1 ∧ (init c t ka kb z).1.igmIdx = -1 ∧ (init c t ka kb z).1.kstart = ka.toNat ∧
    (init c t ka kb z).1.kend = kb.toNat ∧
    (init c t ka kb z).1.dustC = List.replicate t.axis.length 1 ∧
    (init c t ka kb z).1.igmC = List.replicate t.axis.length 1 ∧
    (t.hasIgm = true → (init c t ka kb z).1.zIdx = c.zIndex z ∧
      (init c t ka kb z).1.igmEnd = igmEndIndex c t.axis ka.toNat kb.toNat) ∧
    (t.hasIgm = false → (init c t ka kb z).1.igmEnd = none) := by
  unfold init at hok ⊢
  by_cases g1 : t.hasIgm = false ∧ t.hasDust = false
  · rw [if_pos g1] at hok; cases hok
  rw [if_neg g1] at hok ⊢
  by_cases g2 : ka < 0 ∨ (t.axis.length : Int) ≤ ka
  · rw [if_pos g2] at hok; cases hok
  rw [if_neg g2] at hok ⊢
  by_cases g3 : kb < 0 ∨ (t.axis.length : Int) ≤ kb
  · rw [if_pos g3] at hok; cases hok
  rw [if_neg g3] at hok ⊢
  refine ⟨by omega, by omega, ?_⟩
  cases hh : t.hasIgm with
  | false => by_cases hn : t.noExt = [] <;> simp [hh, hn]
  | true =>
    simp only [hh, true_and, if_true] at hok ⊢
    by_cases g4 : kb < ka
    · rw [if_pos g4] at hok; cases hok
    rw [if_neg g4] at hok ⊢
    by_cases g5 : c.zIndex z = none ∧ igmEndIndex c t.axis ka.toNat kb.toNat ≠ none
    · rw [if_pos g5] at hok; cases hok
    rw [if_neg g5]
    refine ⟨fun _ => by omega, ?_⟩
    by_cases hn : t.noExt = [] <;> simp [hn]

theorem inv_step (c : Curves K) {axis : List K} (hs : axis.Pairwise (· ≤ ·)) {hd hi : Bool} {t : T K} {s : Spec K}
    (h : Inv c axis hd hi t s) (o : Op K) (hok : (step c t o).2 = .ok ()) :
    Inv c axis hd hi (step c t o).1 (s.step o) := by
  cases o with
  | amplitude a =>
    show Inv c axis hd hi (amplitude t a) _
    unfold amplitude enabled
    cases hext : s.ext with
    | none =>
      obtain ⟨h1, h2⟩ := h.off hext
      rw [h1]
      simp only [ne_eq, not_true_eq_false, decide_false, Bool.false_eq_true, if_false]
      refine ⟨h.axis_eq, h.hd_eq, h.hi_eq, by simp [Spec.step, h.blen], by simp [h.flen], fun _ => ⟨rfl, ?_⟩, fun a b z kd i he => ?_⟩
      · simp only [Spec.step, h2]
      · simp only [Spec.step, hext] at he; cases he
    | some v =>
      obtain ⟨a', b', z', kd', i'⟩ := v
      obtain ⟨h1, h2, h3, h4, h5, h6, h7, h8, h9, h10, h11, h12, h13, h14⟩ := h.on _ _ _ _ _ hext
      rw [decide_eq_true h2, if_pos rfl]
      refine ⟨h.axis_eq, h.hd_eq, h.hi_eq, by simp [Spec.step, h.blen], by simp [h.flen], fun he => ?_, fun a'' b'' z'' kd'' i'' he => ?_⟩
      · simp only [Spec.step, hext] at he; cases he
      · simp only [Spec.step, hext] at he
        cases he
        refine ⟨by simp only [Spec.step, h1], by simpa using h2, h3, h4, h5, h6, h7, h8, h9, h10, h11, h12, h13, fun k w hw => ?_⟩
        obtain ⟨x, d, g, e1, e2, e3, e4, e5, e6⟩ := h14 k w hw
        refine ⟨x * a, d, g, by simp [Spec.step, e1], e2, e3, e4, e5, ?_⟩
        simp only [List.getElem?_map, e6, Option.map_some]
        congr 1; ring
  | disable =>
    show Inv c axis hd hi (disable t) _
    unfold disable
    have hext' : (s.step .disable).ext = none := rfl
    cases hext : s.ext with
    | none =>
      obtain ⟨h1, h2⟩ := h.off hext
      rw [if_neg (by simp [h1])]
      exact ⟨h.axis_eq, h.hd_eq, h.hi_eq, h.blen, h.flen, fun _ => ⟨h1, h2⟩, fun a b z kd i he => by rw [hext'] at he; cases he⟩
    | some v =>
      obtain ⟨a', b', z', kd', i'⟩ := v
      obtain ⟨h1, h2, _⟩ := h.on _ _ _ _ _ hext
      rw [if_pos h2]
      exact ⟨h.axis_eq, h.hd_eq, h.hi_eq, h.blen, by show t.noExt.length = _; rw [h1]; exact h.blen,
        fun _ => ⟨rfl, h1⟩, fun a b z kd i he => by rw [hext'] at he; cases he⟩
  | setFlux l =>
    simp only [step, setFlux] at hok ⊢
    split at hok
    · cases hok
    · rename_i hl
      rw [if_neg hl]
      rw [not_not, h.axis_eq] at hl
      exact ⟨h.axis_eq, h.hd_eq, h.hi_eq, hl, hl, fun _ => ⟨rfl, rfl⟩, fun a b z kd i he => by cases he⟩
  | init ka kb z =>
    simp only [step] at hok ⊢
    obtain ⟨g2, g3, g4, hf⟩ := init_ok hok
    rw [h.axis_eq] at g2 g3
    have hbase : (if t.noExt = [] then t.flux else t.noExt) = s.base := by
      cases hext : s.ext with
      | none => obtain ⟨h1, h2⟩ := h.off hext; rw [if_pos h1, h2]
      | some v =>
        obtain ⟨a', b', z', kd', i'⟩ := v
        obtain ⟨h1, h2, _⟩ := h.on _ _ _ _ _ hext
        rw [if_neg h2, h1]
    have hne : s.base ≠ [] := by rw [← List.length_pos_iff, h.blen]; omega
    rw [hbase] at hf
    obtain ⟨u1, u2, u3, u4, u5, u6, u7, u8, u9, u10, u11, u12, u13⟩ := hf
    refine ⟨u1.trans h.axis_eq, u2.trans h.hd_eq, u3.trans h.hi_eq, h.blen, ?_, ?_, ?_⟩
    · exact (congrArg List.length u4).trans h.blen
    · intro he; cases he
    · intro a b z' kd i he
      cases he
      refine ⟨u5, ?_, by omega, by omega, by omega, u8, u9, u6, u7, ?_, ?_, ?_, ?_, ?_⟩
      · exact fun h' => hne (u5.symm.trans h')
      · rw [u10, List.length_replicate, h.axis_eq]
      · rw [u11, List.length_replicate, h.axis_eq]
      · intro hh
        have hh' : t.hasIgm = true := h.hi_eq.trans hh
        obtain ⟨e1, e2⟩ := u12 hh'
        rw [h.axis_eq] at e2
        exact ⟨g4 hh', e1, e2⟩
      · intro hh
        exact u13 (h.hi_eq.trans hh)
      · intro k w hw
        have hk := (List.getElem?_eq_some_iff.1 hw).1
        obtain ⟨x, hx⟩ := getElem_some (l := s.base) (k := k) (by rw [h.blen]; exact hk)
        refine ⟨x, 1, 1, hx, ?_, ?_, isDust_none c _ _ _ _ _ _, isIgm_none c _ _ _ _ _ _ _, ?_⟩
        · rw [u10, List.getElem?_replicate, if_pos (by rw [h.axis_eq]; exact hk)]
        · rw [u11, List.getElem?_replicate, if_pos (by rw [h.axis_eq]; exact hk)]
        · rw [u4, hx, mul_one, mul_one]
  | dust kd =>
    obtain ⟨_, hok', _⟩ := Res.bind_eq_ok.1 hok
    simp only [step]
    unfold applyDust at hok' ⊢
    split at hok'
    · cases hok'
    rename_i g1
    rw [if_neg g1]
    cases hext : s.ext with
    | none =>
      obtain ⟨h1, _⟩ := h.off hext
      exact absurd (Or.inl (by simp [enabled, h1])) g1
    | some v =>
    obtain ⟨a, b, z, kd0, i⟩ := v
    have hon := h.on _ _ _ _ _ hext
    obtain ⟨h1, h2, h3, h4, h5, h6, h7, h8, h9, h10, h11, h12, h13, h14⟩ := hon
    have hstep : (s.step (.dust kd)).ext = some (a, b, z, kd, i) := by simp only [Spec.step, hext, Option.map_some]
    split at hok'
    · rename_i g2
      rw [if_pos g2]
      have : s.step (.dust kd) = s := by
        cases s; simp only [Spec.step] at hext ⊢; subst hext; simp only [Option.map_some]; rw [← g2, h8]
      rw [this]; exact h
    · rename_i g2
      rw [if_neg g2]
      simp only at hok' ⊢
      cases hl : applyLoop t.axis t.noExt t.flux t.dustC t.igmC (fun w => if kd > -1 then c.dust kd w else .ok 1) t.kstart t.kend with
      | throw e => rw [hl] at hok'; cases hok'
      | ub => rw [hl] at hok'; cases hok'
      | ok p =>
        obtain ⟨d', f'⟩ := p
        obtain ⟨l1, l2, l3, l4, l5, l6⟩ := applyLoop_spec hl
        simp only
        refine ⟨h.axis_eq, h.hd_eq, h.hi_eq, h.blen, by show f'.length = _; rw [l2, h.flen], fun he => by rw [hstep] at he; exact absurd he (by simp), ?_⟩
        intro a' b' z' kd' i' he
        rw [hstep] at he
        cases he
        refine ⟨h1, h2, h3, h4, h5, h6, h7, rfl, h9, by show d'.length = _; rw [l1, h10], h11, h12, h13, fun k w hw => ?_⟩
        have hk := (List.getElem?_eq_some_iff.1 hw).1
        obtain ⟨x, d, g, e1, e2, e3, e4, e5, e6⟩ := h14 k w hw
        rw [hext] at e4 e5
        rw [hstep]
        by_cases hin : a.toNat ≤ k ∧ k ≤ b.toNat
        · obtain ⟨w', d2, q1, q2, q3⟩ := l3 k (by omega) (by omega) (by omega)
          obtain ⟨x', p', q', r1, r2, r3, r4⟩ := l5 k (by rw [h.flen]; exact hk) (by omega) (by omega)
          rw [h.axis_eq, hw] at q1; cases q1
          rw [h1, e1] at r1; cases r1
          rw [q3] at r2; cases r2
          rw [e3] at r3; cases r3
          refine ⟨x, d2, g, e1, q3, e3, ?_, e5, r4⟩
          unfold IsDust
          simp only
          by_cases hkd : 0 ≤ kd
          · rw [if_pos ⟨by omega, by omega, hkd⟩]
            rwa [if_pos (by omega)] at q2
          · rw [if_neg (by omega)]
            rw [if_neg (by omega)] at q2
            cases q2; rfl
        · have q1 := l4 k (by omega) (by omega)
          have q2 := l6 k (by rw [h.flen]; exact hk) (by omega)
          refine ⟨x, d, g, e1, by rw [q1]; exact e2, e3, ?_, e5, by rw [q2]; exact e6⟩
          unfold IsDust at e4 ⊢
          simp only at e4 ⊢
          rw [if_neg (by omega)] at e4 ⊢
          exact e4
  | igm ii =>
    obtain ⟨_, hok', _⟩ := Res.bind_eq_ok.1 hok
    simp only [step]
    unfold applyIgm at hok' ⊢
    split at hok'
    · cases hok'
    rename_i g1
    rw [if_neg g1]
    cases hext : s.ext with
    | none =>
      obtain ⟨h1, _⟩ := h.off hext
      exact absurd (Or.inl (by simp [enabled, h1])) g1
    | some v =>
    obtain ⟨a, b, z, kd0, i⟩ := v
    obtain ⟨h1, h2, h3, h4, h5, h6, h7, h8, h9, h10, h11, h12, h13, h14⟩ := h.on _ _ _ _ _ hext
    have hstep : (s.step (.igm ii)).ext = some (a, b, z, kd0, ii) := by simp only [Spec.step, hext, Option.map_some]
    have hi' : hi = true := by
      rw [← h.hi_eq]; by_contra hf; exact g1 (Or.inr (by simpa using hf))
    obtain ⟨hab, hz, hend⟩ := h12 hi'
    have hbn : b.toNat < axis.length := by omega
    split at hok'
    · rename_i g2
      rw [if_pos g2]
      have : s.step (.igm ii) = s := by
        cases s; simp only [Spec.step] at hext ⊢; subst hext; simp only [Option.map_some]; rw [← g2, h9]
      rw [this]; exact h
    · rename_i g2
      rw [if_neg g2]
      simp only at hok' ⊢
      cases hie : t.igmEnd with
      | none =>
        simp only
        refine ⟨h.axis_eq, h.hd_eq, h.hi_eq, h.blen, h.flen, fun he => by rw [hstep] at he; exact absurd he (by simp), ?_⟩
        intro a' b' z' kd' i' he
        rw [hstep] at he
        cases he
        refine ⟨h1, h2, h3, h4, h5, h6, h7, h8, rfl, h10, h11, fun _ => ⟨hab, hz, by rw [← hend, hie]⟩,
          fun _ => rfl, fun k w hw => ?_⟩
        obtain ⟨x, d, g, e1, e2, e3, e4, e5, e6⟩ := h14 k w hw
        rw [hext] at e4 e5
        rw [hstep]
        refine ⟨x, d, g, e1, e2, e3, e4, ?_, e6⟩
        have hno : ¬ (a ≤ k ∧ k ≤ b ∧ w ≤ c.igmMax) := by
          rintro ⟨p1, p2, p3⟩
          obtain ⟨e, he, _⟩ := (igmEndIndex_spec c hs hbn (show a.toNat ≤ b.toNat by omega) k w hw (by omega : a.toNat ≤ k) (by omega)).1 p3
          rw [← hend, hie] at he; cases he
        unfold IsIgm at e5 ⊢
        simp only at e5 ⊢
        rw [if_neg (fun hc => hno ⟨hc.2.1, hc.2.2.1, hc.2.2.2.1⟩)] at e5
        rw [if_neg (fun hc => hno ⟨hc.2.1, hc.2.2.1, hc.2.2.2.1⟩)]
        exact e5
      | some e =>
        rw [hie] at hok'
        simp only at hok' ⊢
        have her := igmEndIndex_range c hbn (by omega) (hend.symm.trans hie)
        cases hl : applyLoop t.axis t.noExt t.flux t.igmC t.dustC (igmCoeff c t.zIdx ii) t.kstart e with
        | throw er => rw [hl] at hok'; cases hok'
        | ub => rw [hl] at hok'; cases hok'
        | ok p =>
          obtain ⟨d', f'⟩ := p
          obtain ⟨l1, l2, l3, l4, l5, l6⟩ := applyLoop_spec hl
          simp only
          refine ⟨h.axis_eq, h.hd_eq, h.hi_eq, h.blen, by show f'.length = _; rw [l2, h.flen], fun he => by rw [hstep] at he; exact absurd he (by simp), ?_⟩
          intro a' b' z' kd' i' he
          rw [hstep] at he
          cases he
          refine ⟨h1, h2, h3, h4, h5, h6, h7, h8, rfl, h10, by show d'.length = _; rw [l1, h11], ?_, ?_, fun k w hw => ?_⟩
          · exact fun hh => ⟨hab, hz, by rw [← hend, hie]⟩
          · intro hh; rw [hi'] at hh; cases hh
          have hk := (List.getElem?_eq_some_iff.1 hw).1
          obtain ⟨x, d, g, e1, e2, e3, e4, e5, e6⟩ := h14 k w hw
          rw [hext] at e4 e5
          rw [hstep]
          by_cases hin : a.toNat ≤ k ∧ k ≤ e
          · obtain ⟨w', d2, q1, q2, q3⟩ := l3 k (by omega) (by omega) (by omega)
            obtain ⟨x', p', q', r1, r2, r3, r4⟩ := l5 k (by rw [h.flen]; exact hk) (by omega) (by omega)
            rw [h.axis_eq, hw] at q1; cases q1
            rw [h1, e1] at r1; cases r1
            rw [q3] at r2; cases r2
            rw [e2] at r3; cases r3
            have hwm : w ≤ c.igmMax :=
              (igmEndIndex_spec c hs hbn (show a.toNat ≤ b.toNat by omega) k w hw (by omega) (by omega)).2 ⟨e, hend.symm.trans hie, hin.2⟩
            refine ⟨x, d, d2, e1, e2, q3, e4, ?_, by show f'[k]? = _; rw [r4]; congr 1; ring⟩
            unfold IsIgm
            simp only
            by_cases hii : 0 ≤ ii
            · rw [if_pos ⟨hi', by omega, by omega, hwm, hii⟩]
              unfold igmCoeff at q2
              rw [if_pos (by omega), hz] at q2
              cases hzz : c.zIndex z with
              | none => rw [hzz] at q2; cases q2
              | some zi => rw [hzz] at q2; exact ⟨zi, rfl, q2⟩
            · rw [if_neg (by rintro ⟨_, _, _, _, hc⟩; omega)]
              unfold igmCoeff at q2
              rw [if_neg (by omega)] at q2
              cases q2; rfl
          · have q1 := l4 k (by omega) (by omega)
            have q2 := l6 k (by rw [h.flen]; exact hk) (by omega)
            refine ⟨x, d, g, e1, e2, by rw [q1]; exact e3, e4, ?_, by rw [q2]; exact e6⟩
            have hno : ¬ (a ≤ k ∧ k ≤ b ∧ w ≤ c.igmMax) := by
              rintro ⟨p1, p2, p3⟩
              obtain ⟨e', he', hke⟩ := (igmEndIndex_spec c hs hbn (show a.toNat ≤ b.toNat by omega) k w hw (by omega : a.toNat ≤ k) (by omega)).1 p3
              rw [← hend, hie] at he'; cases he'
              exact hin ⟨by omega, hke⟩
            unfold IsIgm at e5 ⊢
            simp only at e5 ⊢
            rw [if_neg (fun hc => hno ⟨hc.2.1, hc.2.2.1, hc.2.2.2.1⟩)] at e5
            rw [if_neg (fun hc => hno ⟨hc.2.1, hc.2.2.1, hc.2.2.2.1⟩)]
            exact e5

theorem inv_make (c : Curves K) (axis flux : List K) (hd hi : Bool) (hl : flux.length = axis.length) :
    Inv c axis hd hi (make axis flux hd hi) ⟨flux, none⟩ :=
  ⟨rfl, rfl, rfl, hl, hl, fun _ => ⟨rfl, rfl⟩, fun a b z kd i he => by cases he⟩

theorem inv_run (c : Curves K) {axis : List K} (hs : axis.Pairwise (· ≤ ·)) {hd hi : Bool} :
    ∀ (ops : List (Op K)) (t t' : T K) (s : Spec K), Inv c axis hd hi t s → run c t ops = .ok t' →
    Inv c axis hd hi t' (ops.foldl Spec.step s)
  | [], t, t', s, h, hr => by cases hr; exact h
  | o :: os, t, t', s, h, hr => by
    unfold run at hr
    obtain ⟨u, h1, h2⟩ := Res.bind_eq_ok.1 hr
    exact inv_run c hs os _ t' _ (inv_step c hs h o h1) h2

/-- **C42.** After any history of configurations, dust and IGM indices, amplitudes, disablings and new fluxes, all of whose
calls return, the flux of every sample is the flux without extinction times the dust coefficient of the last index applied
since the last configuration (inside its range) times the IGM coefficient of the last index applied since (inside its range,
up to the largest wavelength of the curves). -/
theorem C42_history (c : Curves K) (axis flux : List K) (hs : axis.Pairwise (· ≤ ·)) (hl : flux.length = axis.length)
    (hd hi : Bool) (ops : List (Op K)) (t : T K) (hr : run c (make axis flux hd hi) ops = .ok t)
    (k : Nat) (w : K) (hw : axis[k]? = some w) :
    ∃ x d g, (ops.foldl Spec.step ⟨flux, none⟩).base[k]? = some x ∧
      IsDust c (ops.foldl Spec.step ⟨flux, none⟩).ext k w d ∧
      IsIgm c hi (ops.foldl Spec.step ⟨flux, none⟩).ext k w g ∧ t.flux[k]? = some (x * d * g) := by
  have h := inv_run c hs ops _ _ _ (inv_make c axis flux hd hi hl) hr
  set s := ops.foldl Spec.step ⟨flux, none⟩
  cases hext : s.ext with
  | none =>
    obtain ⟨h1, h2⟩ := h.off hext
    obtain ⟨x, hx⟩ := getElem_some (l := s.base) (k := k) (by rw [h.blen]; exact (List.getElem?_eq_some_iff.1 hw).1)
    exact ⟨x, 1, 1, hx, rfl, rfl, by rw [h2, hx, mul_one, mul_one]⟩
  | some v =>
    obtain ⟨a, b, z, kd, i⟩ := v
    obtain ⟨_, _, _, _, _, _, _, _, _, _, _, _, _, h14⟩ := h.on _ _ _ _ _ hext
    obtain ⟨x, d, g, e1, e2, e3, e4, e5, e6⟩ := h14 k w hw
    rw [hext] at e4 e5
    exact ⟨x, d, g, e1, e4, e5, e6⟩

theorem isDust_unique {c : Curves K} {ext : Option (Int × Int × K × Int × Int)} {k : Nat} {w d d' : K}
    (h : IsDust c ext k w d) (h' : IsDust c ext k w d') : d = d' := by
  unfold IsDust at h h'
  cases ext with
  | none => simp only at h h'; rw [h, h']
  | some v =>
    simp only at h h'
    split at h
    · rename_i h1; rw [if_pos h1, h] at h'; exact Res.ok.inj h'
    · rename_i h1; rw [if_neg h1] at h'; rw [h, h']

theorem isIgm_unique {c : Curves K} {hi : Bool} {ext : Option (Int × Int × K × Int × Int)} {k : Nat} {w g g' : K}
    (h : IsIgm c hi ext k w g) (h' : IsIgm c hi ext k w g') : g = g' := by
  unfold IsIgm at h h'
  cases ext with
  | none => simp only at h h'; rw [h, h']
  | some v =>
    simp only at h h'
    split at h
    · rename_i h1
      rw [if_pos h1] at h'
      obtain ⟨z1, p1, p2⟩ := h
      obtain ⟨z2, q1, q2⟩ := h'
      rw [p1] at q1; cases q1
      rw [p2] at q2; exact Res.ok.inj q2
    · rename_i h1; rw [if_neg h1] at h'; rw [h, h']

/-- **C42, commutation.** Applying a dust index then an IGM index, or the IGM index then the dust index, gives the same
flux. -/
theorem C42_commute (c : Curves K) (axis flux : List K) (hs : axis.Pairwise (· ≤ ·)) (hl : flux.length = axis.length)
    (hd hi : Bool) (ops : List (Op K)) (kd i : Int) (t t' : T K)
    (hr : run c (make axis flux hd hi) (ops ++ [.dust kd, .igm i]) = .ok t)
    (hr' : run c (make axis flux hd hi) (ops ++ [.igm i, .dust kd]) = .ok t') : t.flux = t'.flux := by
  have h := inv_run c hs _ _ _ _ (inv_make c axis flux hd hi hl) hr
  have h' := inv_run c hs _ _ _ _ (inv_make c axis flux hd hi hl) hr'
  apply List.ext_getElem?
  intro k
  by_cases hk : k < axis.length
  · obtain ⟨w, hw⟩ := getElem_some hk
    obtain ⟨x, d, g, e1, e2, e3, e4⟩ := C42_history c axis flux hs hl hd hi _ t hr k w hw
    obtain ⟨x', d', g', e1', e2', e3', e4'⟩ := C42_history c axis flux hs hl hd hi _ t' hr' k w hw
    have hsp : (ops ++ [Op.igm i, Op.dust kd]).foldl Spec.step (⟨flux, none⟩ : Spec K) =
        (ops ++ [Op.dust kd, Op.igm i]).foldl Spec.step ⟨flux, none⟩ := by
      simp only [List.foldl_append, List.foldl_cons, List.foldl_nil, Spec.step]
      cases (ops.foldl Spec.step (⟨flux, none⟩ : Spec K)).ext with
      | none => rfl
      | some v => rfl
    rw [hsp] at e1' e2' e3'
    rw [e1] at e1'; cases e1'
    have hdd : d = d' := isDust_unique e2 e2'
    have hgg : g = g' := isIgm_unique e3 e3'
    rw [e4, e4', hdd, hgg]
  · rw [List.getElem?_eq_none (by rw [h.flen]; omega), List.getElem?_eq_none (by rw [h'.flen]; omega)]

/-- **C42, reset.** A new configuration, or a disabling, restores the flux without extinction. -/
theorem C42_reset (c : Curves K) (axis flux : List K) (hs : axis.Pairwise (· ≤ ·)) (hl : flux.length = axis.length)
    (hd hi : Bool) (ops : List (Op K)) (o : Op K) (ho : o = .disable ∨ ∃ a b z, o = .init a b z) (t : T K)
    (hr : run c (make axis flux hd hi) (ops ++ [o]) = .ok t) :
    t.flux = (ops.foldl Spec.step ⟨flux, none⟩).base := by
  have h := inv_run c hs _ _ _ _ (inv_make c axis flux hd hi hl) hr
  have hb : ((ops ++ [o]).foldl Spec.step (⟨flux, none⟩ : Spec K)).base = (ops.foldl Spec.step ⟨flux, none⟩).base := by
    rw [List.foldl_append]
    rcases ho with rfl | ⟨a, b, z, rfl⟩ <;> rfl
  rw [← hb]
  apply List.ext_getElem?
  intro k
  by_cases hk : k < axis.length
  · obtain ⟨w, hw⟩ := getElem_some hk
    obtain ⟨x, d, g, e1, e2, e3, e4⟩ := C42_history c axis flux hs hl hd hi _ t hr k w hw
    have hd1 : d = 1 ∧ g = 1 := by
      rw [List.foldl_append] at e2 e3
      rcases ho with rfl | ⟨a, b, z, rfl⟩
      · exact ⟨e2, e3⟩
      · simp only [List.foldl_cons, List.foldl_nil, Spec.step, IsDust, IsIgm] at e2 e3
        rw [if_neg (by omega)] at e2
        rw [if_neg (by rintro ⟨_, _, _, _, h⟩; omega)] at e3
        exact ⟨e2, e3⟩
    rw [e4, e1, hd1.1, hd1.2, mul_one, mul_one]
  · rw [List.getElem?_eq_none (by rw [h.flen]; omega), List.getElem?_eq_none (by rw [h.blen]; omega)]

/-! ## Concrete curves, and what breaks when calls throw -/

/-- Two dust curves (coefficients 1/2 and 1/4), one IGM curve (1/10) up to wavelength 3, for redshifts at least 2. -/
def exCurves : Curves ℚ where
  dust k _ := if 2 ≤ k then .throw .INTERNAL_ERROR else .ok (if k = 0 then 1 / 2 else 1 / 4)
  zIndex z := if 2 ≤ z then some 0 else none
  igm _ _ _ := .ok (1 / 10)
  igmMax := 3

example : run exCurves (make [1, 2, 3, 4, 5] [8, 8, 8, 8, 8] true true)
    [.init 1 3 2, .dust 0, .igm 0, .dust 1, .amplitude 2] =
    .ok ⟨[1, 2, 3, 4, 5], [16, 2 / 5, 2 / 5, 4, 16], [16, 16, 16, 16, 16], 1, 0, some 0, 1, 3, some 2,
      [1, 1 / 4, 1 / 4, 1 / 4, 1], [1, 1 / 10, 1 / 10, 1, 1], true, true⟩ := by decide +kernel

/-- **C42, after exceptions.** When a call has thrown, the history property fails: a dust index out of range is recorded
although it was refused (the next call with it returns normally, without effect), and a configuration refused for its
redshift leaves the previous dust in the flux, which the index -1 no longer removes. -/
theorem C42_after_exception_counterexamples :
    (applyDust exCurves (runCatch exCurves (make [1, 2] [8, 8] true true) [.init 0 1 2, .dust 7]) 7).2 = .ok true ∧
    (runCatch exCurves (make [1, 2] [8, 8] true true) [.init 0 1 2, .dust 7, .dust 7]).flux = [8, 8] ∧
    (step exCurves (runCatch exCurves (make [1, 2] [8, 8] true true) [.init 0 1 2, .dust 0]) (.init 0 1 1)).2 =
      .throw .INTERNAL_ERROR ∧
    (runCatch exCurves (make [1, 2] [8, 8] true true) [.init 0 1 2, .dust 0, .init 0 1 1, .dust (-1)]).flux = [4, 4] := by
  decide +kernel

end
end Tpl
end Amazed
