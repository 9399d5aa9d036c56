import Verif.Model.TplMask
import Verif.Props.TemplateProps
import Verif.Props.SpectralAxisProps
import Verif.Props.RangeProps

/-! # C172: masked copy of a template -/

set_option linter.unusedSectionVars false
set_option linter.unusedVariables false

namespace Amazed
namespace Tpl

section
variable {K : Type} [Field K] [LinearOrder K] [IsStrictOrderedRing K]

/-- Specification: the numbers of the kept samples. -/
def kept (mask : List K) : List Nat := selected mask (List.range mask.length)

theorem selected_map {α β : Type} (f : α → β) : ∀ (m : List K) (v : List α), selected m (v.map f) = (selected m v).map f
  | [], v => by simp [selected]
  | a :: m, [] => by simp [selected]
  | a :: m, x :: v => by
    have := selected_map f m v
    unfold selected at this ⊢
    by_cases h : a = 1 <;> simp [h, this]

theorem selected_some {α : Type} (mask : List K) (v : List α) (h : mask.length = v.length) :
    (selected mask v).map some = (kept mask).map fun (k : Nat) => v[k]? := by
  unfold kept
  rw [← selected_map, ← selected_map, h]
  congr 1
  apply List.ext_getElem
  · simp
  · intro i h1 h2; simp at h1; simp [h1]

theorem selected_get {α : Type} (mask : List K) (v : List α) (h : mask.length = v.length) {k p : Nat}
    (hp : (kept mask)[k]? = some p) : (selected mask v)[k]? = v[p]? := by
  have e := congrArg (fun (l : List (Option α)) => l[k]?) (selected_some mask v h)
  simp only [List.getElem?_map, hp, Option.map_some] at e
  cases hv : (selected mask v)[k]? with
  | none => rw [hv] at e; simp at e
  | some x => rw [hv] at e; simpa using e

theorem selected_length {α : Type} (mask : List K) (v : List α) (h : mask.length = v.length) :
    (selected mask v).length = (kept mask).length := by
  have := congrArg List.length (selected_some mask v h)
  simpa using this

theorem kept_lt (mask : List K) {k p : Nat} (hp : (kept mask)[k]? = some p) : p < mask.length := by
  have := List.mem_of_getElem? hp
  unfold kept selected at this
  obtain ⟨q, h1, h2⟩ := List.mem_map.1 this
  have h3 := (List.of_mem_zip (List.mem_of_mem_filter h1)).2
  rw [h2] at h3
  exact List.mem_range.1 h3

/-- The kept samples are those whose mask is 1. -/
theorem kept_iff (mask : List K) (p : Nat) : p ∈ kept mask ↔ mask[p]? = some 1 := by
  unfold kept selected
  constructor
  · intro h
    obtain ⟨q, h1, h2⟩ := List.mem_map.1 h
    obtain ⟨h3, h4⟩ := List.mem_filter.1 h1
    obtain ⟨i, hi⟩ := List.mem_iff_getElem?.1 h3
    rw [List.getElem?_zip_eq_some] at hi
    obtain ⟨e1, e2⟩ := hi
    rw [List.getElem?_range (by
      by_contra hc
      rw [List.getElem?_eq_none (by simpa using hc)] at e2; cases e2)] at e2
    cases e2
    rw [← h2, e1]
    simpa using h4
  · intro h
    have hl := (List.getElem?_eq_some_iff.1 h).1
    refine List.mem_map.2 ⟨(1, p), List.mem_filter.2 ⟨List.mem_iff_getElem?.2 ⟨p, ?_⟩, by simp⟩, rfl⟩
    rw [List.getElem?_zip_eq_some]
    exact ⟨h, by simp [hl]⟩

theorem selected_sublist {α : Type} (mask : List K) (v : List α) : (selected mask v).Sublist v := by
  induction mask generalizing v with
  | nil => simp [selected]
  | cons a m ih =>
    cases v with
    | nil => simp [selected]
    | cons x v =>
      have := ih v
      unfold selected at this ⊢
      by_cases h : a = 1
      · simp [h, this]
      · simpa [h] using this.cons x

theorem kept_sorted (mask : List K) : (kept mask).Pairwise (· < ·) :=
  List.Pairwise.sublist (selected_sublist mask _) List.pairwise_lt_range

theorem maskVector_ok {α : Type} {m : List K} {v r : List α} (h : maskVector m v = .ok r) :
    m.length = v.length ∧ r = selected m v := by
  by_cases hl : m.length = v.length
  · rw [(C34_maskVector m v).1 hl] at h; cases h; exact ⟨hl, rfl⟩
  · rw [(C34_maskVector m v).2 hl] at h; cases h

/-! ## The copy -/

theorem mem_idx {axis : List K} (hs : axis.Pairwise (· < ·)) {a b p : Nat} {wa wb w : K} (ha : axis[a]? = some wa)
    (hb : axis[b]? = some wb) (hp : axis[p]? = some w) : (⟨wa, wb⟩ : Range K).Mem w ↔ a ≤ p ∧ p ≤ b := by
  obtain ⟨a1, rfl⟩ := List.getElem?_eq_some_iff.1 ha
  obtain ⟨b1, rfl⟩ := List.getElem?_eq_some_iff.1 hb
  obtain ⟨p1, rfl⟩ := List.getElem?_eq_some_iff.1 hp
  have key : ∀ (i j : Nat) (hi : i < axis.length) (hj : j < axis.length), axis[i] ≤ axis[j] ↔ i ≤ j := by
    intro i j hi hj
    constructor
    · intro h
      by_contra hc
      exact absurd h (not_le.2 (List.pairwise_iff_getElem.1 hs _ _ hj hi (by omega)))
    · intro h
      rcases Nat.lt_or_eq_of_le h with h | h
      · exact le_of_lt (List.pairwise_iff_getElem.1 hs _ _ hi hj h)
      · subst h; exact le_rfl
  unfold Range.Mem
  simp only [key]

/-- What the masked copy holds. -/
structure Copy (mask : List K) (t u : T K) : Prop where
  len : mask.length = t.axis.length
  axis_eq : u.axis = selected mask t.axis
  flux_eq : u.flux = selected mask t.flux
  kDust : u.kDust = t.kDust
  igmIdx : u.igmIdx = t.igmIdx
  zIdx : u.zIdx = t.zIdx
  hd : u.hasDust = t.hasDust
  hi : u.hasIgm = t.hasIgm
  igmEnd : u.igmEnd = none
  off : t.noExt = [] → u.noExt = []
  out : t.noExt ≠ [] → u.noExt = [] → ∀ p ∈ kept mask, ¬ (t.kstart ≤ p ∧ p ≤ t.kend)
  on : u.noExt ≠ [] → t.noExt ≠ [] ∧ u.noExt = selected mask t.noExt ∧ mask.length = t.noExt.length ∧
    u.dustC = selected mask t.dustC ∧ mask.length = t.dustC.length ∧ u.igmC = selected mask t.igmC ∧
    mask.length = t.igmC.length ∧
    ∀ (k p : Nat), (kept mask)[k]? = some p → ((u.kstart ≤ k ∧ k ≤ u.kend) ↔ (t.kstart ≤ p ∧ p ≤ t.kend))

theorem copy_of_masked {mask : List K} {t u : T K} (hs : t.axis.Pairwise (· < ·)) (hn : t.noExt ≠ [] → t.noExt.length = t.axis.length)
    (h : masked mask t = .ok u) : Copy mask t u := by
  unfold masked at h
  obtain ⟨a, h1, h⟩ := Res.bind_eq_ok.1 h
  obtain ⟨f, h2, h⟩ := Res.bind_eq_ok.1 h
  obtain ⟨l1, rfl⟩ := maskVector_ok h1
  obtain ⟨l2, rfl⟩ := maskVector_ok h2
  by_cases he : enabled t = false
  · rw [if_pos he] at h
    cases h
    have h0 : t.noExt = [] := by simpa [enabled] using he
    exact ⟨l1, rfl, rfl, rfl, rfl, rfl, rfl, rfl, rfl, fun _ => rfl, fun h => absurd h0 h, fun h => absurd rfl h⟩
  · rw [if_neg he] at h
    obtain ⟨b, h3, h⟩ := Res.bind_eq_ok.1 h
    obtain ⟨e, h4, h⟩ := Res.bind_eq_ok.1 h
    have h0 : t.noExt ≠ [] := by simpa [enabled] using he
    have hb := Res.at_eq_ok.1 h3
    have hee := Res.at_eq_ok.1 h4
    have hs' : (selected mask t.axis).Pairwise (· < ·) := List.Pairwise.sublist (selected_sublist mask _) hs
    obtain ⟨c1, c2, c3, c4⟩ := C03_closed (⟨b, e⟩ : Range K) (selected mask t.axis) hs'
    have hk : ∀ (k p : Nat), (kept mask)[k]? = some p → ∃ (hk : k < (selected mask t.axis).length),
        ((⟨b, e⟩ : Range K).Mem (selected mask t.axis)[k] ↔ t.kstart ≤ p ∧ p ≤ t.kend) := by
      intro k p hp
      have e1 := selected_get mask t.axis l1 hp
      have hpl := kept_lt mask hp
      rw [l1] at hpl
      have hkl : k < (selected mask t.axis).length := by
        rw [selected_length mask t.axis l1]; exact (List.getElem?_eq_some_iff.1 hp).1
      refine ⟨hkl, ?_⟩
      rw [List.getElem?_eq_getElem hkl] at e1
      exact mem_idx hs hb hee e1.symm
    cases hc : Range.closedIdx (⟨b, e⟩ : Range K) (selected mask t.axis) with
    | ub => exact absurd hc c4
    | throw er =>
      rw [hc] at h
      unfold maskedExt at h
      simp only at h
      by_cases h5 : er = .CRANGE_VECTBORDERS_OUTSIDERANGE
      · rw [if_pos h5] at h
        cases h
        refine ⟨l1, rfl, rfl, rfl, rfl, rfl, rfl, rfl, rfl, fun _ => rfl, fun _ _ p hp hin => ?_, fun h => absurd rfl h⟩
        obtain ⟨k, hkp⟩ := List.mem_iff_getElem?.1 hp
        obtain ⟨k1, k2⟩ := hk k p hkp
        obtain ⟨ij, hij⟩ := c2.2 ⟨_, List.getElem_mem k1, k2.2 hin⟩
        rw [hij] at hc; cases hc
      · rw [if_neg h5] at h; cases h
    | ok ij =>
      rw [hc] at h
      unfold maskedExt at h
      simp only at h
      obtain ⟨ne, h6, h⟩ := Res.bind_eq_ok.1 h
      obtain ⟨dc, h7, h⟩ := Res.bind_eq_ok.1 h
      obtain ⟨ic, h8, h⟩ := Res.bind_eq_ok.1 h
      obtain ⟨l6, rfl⟩ := maskVector_ok h6
      obtain ⟨l7, rfl⟩ := maskVector_ok h7
      obtain ⟨l8, rfl⟩ := maskVector_ok h8
      cases h
      obtain ⟨i, j⟩ := ij
      obtain ⟨d1, d2, d3⟩ := c1 i j hc
      have hne : selected mask t.noExt ≠ [] := by
        intro h9
        have e1 := selected_length mask t.noExt l6
        have e2 := selected_length mask t.axis l1
        rw [h9] at e1
        simp at e1
        omega
      refine ⟨l1, rfl, rfl, rfl, rfl, rfl, rfl, rfl, rfl, fun h => absurd h h0, fun _ h => absurd h hne, fun _ =>
        ⟨h0, rfl, l6, rfl, l7, rfl, l8, fun k p hkp => ?_⟩⟩
      obtain ⟨k1, k2⟩ := hk k p hkp
      rw [← k2]
      exact d3 k k1

/-! ## The theorems -/

theorem noExt_len {c : Curves K} {axis : List K} {hd hi : Bool} {t : T K} {s : Spec K} (h : Inv c axis hd hi t s) :
    t.noExt ≠ [] → t.noExt = s.base ∧ t.noExt.length = t.axis.length := by
  intro hn
  cases he : s.ext with
  | none => exact absurd (h.off he).1 hn
  | some v =>
    obtain ⟨a, b, z, kd, i⟩ := v
    have := (h.on _ _ _ _ _ he).1
    exact ⟨this, by rw [this, h.blen, h.axis_eq]⟩

/-- **C172, data.** The masked copy of a template, after any history of calls, holds the wavelengths and the fluxes of the
kept samples. -/
theorem C172_data (c : Curves K) (axis flux : List K) (hs : axis.Pairwise (· < ·)) (hl : flux.length = axis.length)
    (hd hi : Bool) (ops : List (Op K)) (t u : T K) (hr : run c (make axis flux hd hi) ops = .ok t) (mask : List K)
    (hm : masked mask t = .ok u) :
    mask.length = axis.length ∧ u.axis = selected mask axis ∧ u.flux = selected mask t.flux := by
  have h := inv_run c (pairwise_le_of_lt hs) ops _ _ _ (inv_make c axis flux hd hi hl) hr
  have C := copy_of_masked (by rw [h.axis_eq]; exact hs) (fun hn => (noExt_len h hn).2) hm
  have ha := h.axis_eq
  exact ⟨by rw [← ha]; exact C.len, by rw [← ha]; exact C.axis_eq, C.flux_eq⟩

theorem ext_get {α : Type} {mask : List K} {l v : List α} (hv : mask.length = v.length) (hl : l.length = (kept mask).length)
    (h : ∀ (k p : Nat), (kept mask)[k]? = some p → l[k]? = v[p]?) : l = selected mask v := by
  apply List.ext_getElem?
  intro k
  by_cases hk : k < (kept mask).length
  · obtain ⟨p, hp⟩ := getElem_some (l := kept mask) hk
    rw [h k p hp, selected_get mask v hv hp]
  · rw [List.getElem?_eq_none (by omega), List.getElem?_eq_none (by rw [selected_length mask v hv]; omega)]

/-- The loop of the extinctions on the copy gives the kept part of the loop on the original. -/
theorem applyLoop_kept {mask axis noExt flux coeff other d' f' : List K} {f : K → Res K} {a b i j : Nat}
    (h1 : mask.length = axis.length) (h2 : mask.length = noExt.length) (h3 : mask.length = flux.length)
    (h4 : mask.length = coeff.length) (h5 : mask.length = other.length)
    (hidx : ∀ (k p : Nat), (kept mask)[k]? = some p → ((i ≤ k ∧ k ≤ j) ↔ (a ≤ p ∧ p ≤ b)))
    (h : applyLoop axis noExt flux coeff other f a b = .ok (d', f')) :
    applyLoop (selected mask axis) (selected mask noExt) (selected mask flux) (selected mask coeff) (selected mask other)
      f i j = .ok (selected mask d', selected mask f') := by
  obtain ⟨s1, s2, s3, s4, s5, s6⟩ := applyLoop_spec h
  have hk : ∀ k, k < (kept mask).length → ∃ p, (kept mask)[k]? = some p ∧ p < mask.length := fun k hk => by
    obtain ⟨p, hp⟩ := getElem_some (l := kept mask) hk
    exact ⟨p, hp, kept_lt mask hp⟩
  have hd : mask.length = d'.length := by omega
  have hf : mask.length = f'.length := by omega
  have L : ∀ v : List K, mask.length = v.length → (selected mask v).length = (kept mask).length :=
    fun v hv => selected_length mask v hv
  have tabE : ∀ (g : Nat → Res K) (v : List K), mask.length = v.length →
      (∀ (k p : Nat), (kept mask)[k]? = some p → ∀ x, v[p]? = some x → g k = .ok x) →
      Res.tab g (kept mask).length = .ok (selected mask v) := by
    intro g v hv hg
    rw [Res.tab_ok (g := g) (h := fun k => (selected mask v).getD k 0) _ ?_]
    · congr 1
      apply List.ext_getElem
      · simp [L v hv]
      · intro k k1 k2
        simp [k2]
    · intro k hkk
      obtain ⟨p, hp, hpl⟩ := hk k hkk
      obtain ⟨x, hx⟩ := getElem_some (l := v) (k := p) (by omega)
      rw [hg k p hp x hx]
      have := selected_get mask v hv hp
      rw [List.getD_eq_getElem?_getD, this, hx]; rfl
  unfold applyLoop
  rw [L coeff h4, tabE _ d' hd]
  · rw [Res.bind_ok, L flux h3, tabE _ f' hf]
    · rfl
    · intro k p hp x hx
      have hpl := kept_lt mask hp
      obtain ⟨old, ho⟩ := getElem_some (l := flux) (k := p) (by omega)
      rw [Res.at_eq_ok.2 (show (selected mask flux)[k]? = some old by rw [selected_get mask flux h3 hp]; exact ho), Res.bind_ok]
      by_cases hin : a ≤ p ∧ p ≤ b
      · rw [if_pos ((hidx k p hp).2 hin)]
        obtain ⟨y, q, r, e1, e2, e3, e4⟩ := s5 p (by omega) hin.1 hin.2
        rw [hx] at e4
        rw [Res.at_eq_ok.2 (show (selected mask noExt)[k]? = some y by rw [selected_get mask noExt h2 hp]; exact e1), Res.bind_ok,
          Res.at_eq_ok.2 (show (selected mask d')[k]? = some q by rw [selected_get mask d' hd hp]; exact e2), Res.bind_ok,
          Res.at_eq_ok.2 (show (selected mask other)[k]? = some r by rw [selected_get mask other h5 hp]; exact e3), Res.bind_ok]
        cases e4; rfl
      · rw [if_neg (fun hc => hin ((hidx k p hp).1 hc))]
        have := s6 p (by omega) hin
        rw [hx, ho] at this
        cases this; rfl
  · intro k p hp x hx
    have hpl := kept_lt mask hp
    obtain ⟨old, ho⟩ := getElem_some (l := coeff) (k := p) (by omega)
    rw [Res.at_eq_ok.2 (show (selected mask coeff)[k]? = some old by rw [selected_get mask coeff h4 hp]; exact ho), Res.bind_ok]
    by_cases hin : a ≤ p ∧ p ≤ b
    · rw [if_pos ((hidx k p hp).2 hin)]
      obtain ⟨w, d, e1, e2, e3⟩ := s3 p (by omega) hin.1 hin.2
      rw [Res.at_eq_ok.2 (show (selected mask axis)[k]? = some w by rw [selected_get mask axis h1 hp]; exact e1), Res.bind_ok, e2]
      rw [hx] at e3; cases e3; rfl
    · rw [if_neg (fun hc => hin ((hidx k p hp).1 hc))]
      have := s4 p (by omega) hin
      rw [hx, ho] at this
      cases this; rfl

/-- **C172, dust.** When the extinctions of the copy are enabled, applying a dust index to the copy gives the kept samples of
what it gives on the original. Partial: the same is false of the IGM, see `C172_igm_counterexample`. -/
theorem C172_dust_partial (c : Curves K) (axis flux : List K) (hs : axis.Pairwise (· < ·)) (hl : flux.length = axis.length)
    (hd hi : Bool) (ops : List (Op K)) (t u : T K) (hr : run c (make axis flux hd hi) ops = .ok t) (mask : List K)
    (hm : masked mask t = .ok u) (hu : u.noExt ≠ []) (kd : Int) (x : Bool) (hok : (applyDust c t kd).2 = .ok x) :
    (applyDust c u kd).2 = .ok x ∧ (applyDust c u kd).1.flux = selected mask (applyDust c t kd).1.flux := by
  have h := inv_run c (pairwise_le_of_lt hs) ops _ _ _ (inv_make c axis flux hd hi hl) hr
  have C := copy_of_masked (by rw [h.axis_eq]; exact hs) (fun hn => (noExt_len h hn).2) hm
  obtain ⟨o1, o2, o3, o4, o5, o6, o7, o8⟩ := C.on hu
  have hfl : mask.length = t.flux.length := by rw [C.len, h.flen, h.axis_eq]
  have et : enabled t = true := by simpa [enabled] using o1
  have eu : enabled u = true := by simpa [enabled] using hu
  unfold applyDust at hok ⊢
  rw [C.hd, eu, C.kDust]
  rw [et] at hok ⊢
  by_cases g1 : true = false ∨ t.hasDust = false
  · rw [if_pos g1] at hok; cases hok
  rw [if_neg g1] at hok ⊢
  rw [if_neg g1]
  by_cases g2 : t.kDust = kd
  · rw [if_pos g2] at hok ⊢
    rw [if_pos g2]
    exact ⟨hok, C.flux_eq⟩
  rw [if_neg g2] at hok ⊢
  rw [if_neg g2]
  cases hc : applyLoop t.axis t.noExt t.flux t.dustC t.igmC (fun w => if kd > -1 then c.dust kd w else .ok 1)
      t.kstart t.kend with
  | ok r =>
    obtain ⟨d', f'⟩ := r
    have := applyLoop_kept C.len o3 hfl o5 o7 o8 hc
    rw [C.axis_eq, o2, C.flux_eq, o4, o6, this]
    rw [hc] at hok
    exact ⟨hok, rfl⟩
  | throw e => rw [hc] at hok; cases hok
  | ub => rw [hc] at hok; cases hok

/-- **C172, amplitude.** Scaling the copy gives the kept samples of the scaled original. -/
theorem C172_amplitude (c : Curves K) (axis flux : List K) (hs : axis.Pairwise (· < ·)) (hl : flux.length = axis.length)
    (hd hi : Bool) (ops : List (Op K)) (t u : T K) (hr : run c (make axis flux hd hi) ops = .ok t) (mask : List K)
    (hm : masked mask t = .ok u) (a : K) : (amplitude u a).flux = selected mask (amplitude t a).flux := by
  obtain ⟨h1, h2, h3⟩ := C172_data c axis flux hs hl hd hi ops t u hr mask hm
  have e : ∀ v : T K, (amplitude v a).flux = v.flux.map (· * a) := by
    intro v; unfold amplitude; split <;> rfl
  rw [e, e, h3, selected_map]

/-- The flux without extinction of the copy is the kept part of the flux without extinction. -/
theorem base_kept {c : Curves K} {axis : List K} {hd hi : Bool} {t u : T K} {s : Spec K} (h : Inv c axis hd hi t s)
    {mask : List K} (C : Copy mask t u) :
    (if u.noExt = [] then u.flux else u.noExt) = selected mask s.base := by
  by_cases hu : u.noExt = []
  · rw [if_pos hu, C.flux_eq]
    have l1 : mask.length = t.flux.length := by rw [C.len, h.flen, h.axis_eq]
    have l2 : mask.length = s.base.length := by rw [C.len, h.blen, h.axis_eq]
    refine ext_get l2 (selected_length mask _ l1) (fun k p hp => ?_)
    rw [selected_get mask _ l1 hp]
    cases he : s.ext with
    | none => rw [(h.off he).2]
    | some v =>
      obtain ⟨a, b, z, kd, i⟩ := v
      obtain ⟨e1, e2, e3, e4, e5, e6, e7, e8, e9, e10, e11, e12, e13, e14⟩ := h.on _ _ _ _ _ he
      have hno := C.out e2 hu p (List.mem_of_getElem? hp)
      have hpl := kept_lt mask hp
      obtain ⟨w, hw⟩ := getElem_some (l := axis) (k := p) (by rw [← h.axis_eq, ← C.len]; exact hpl)
      obtain ⟨x, d, g, f1, f2, f3, f4, f5, f6⟩ := e14 p w hw
      have hab : ¬ (a ≤ (p : Int) ∧ (p : Int) ≤ b) := fun hc => hno (by rw [e6, e7]; omega)
      rw [he] at f4 f5
      have d1 : d = 1 := by
        unfold IsDust at f4
        simp only at f4
        rwa [if_neg (fun hc => hab ⟨hc.1, hc.2.1⟩)] at f4
      have g1 : g = 1 := by
        unfold IsIgm at f5
        simp only at f5
        rwa [if_neg (fun hc => hab ⟨hc.2.1, hc.2.2.1⟩)] at f5
      rw [f6, f1, d1, g1, mul_one, mul_one]
  · rw [if_neg hu, (C.on hu).2.1, (noExt_len h (C.on hu).1).1]

/-- **C172, disabling.** Disabling the extinctions of the copy gives the kept samples of the flux without extinction. -/
theorem C172_disable (c : Curves K) (axis flux : List K) (hs : axis.Pairwise (· < ·)) (hl : flux.length = axis.length)
    (hd hi : Bool) (ops : List (Op K)) (t u : T K) (hr : run c (make axis flux hd hi) ops = .ok t) (mask : List K)
    (hm : masked mask t = .ok u) :
    (disable u).flux = selected mask (ops.foldl Spec.step ⟨flux, none⟩).base := by
  have h := inv_run c (pairwise_le_of_lt hs) ops _ _ _ (inv_make c axis flux hd hi hl) hr
  have C := copy_of_masked (by rw [h.axis_eq]; exact hs) (fun hn => (noExt_len h hn).2) hm
  rw [← base_kept h C]
  unfold disable
  by_cases hu : u.noExt = []
  · rw [if_neg (by simpa using hu), if_pos hu]
  · rw [if_pos hu, if_neg hu]

/-- **C172, configuring the copy.** A copy whose extinctions are configured again follows, whatever the calls after, the
indices asked for on it: the flux of each of its samples is the kept flux without extinction of the original times the dust
and IGM coefficients. -/
theorem C172_configured (c : Curves K) (axis flux : List K) (hs : axis.Pairwise (· < ·)) (hl : flux.length = axis.length)
    (hd hi : Bool) (ops : List (Op K)) (t u : T K) (hr : run c (make axis flux hd hi) ops = .ok t) (mask : List K)
    (hm : masked mask t = .ok u) (a b : Int) (z : K) (ops2 : List (Op K)) (v : T K)
    (hr2 : run c u (.init a b z :: ops2) = .ok v) (k : Nat) (w : K) (hw : (selected mask axis)[k]? = some w) :
    ∃ x d g, ((Op.init a b z :: ops2).foldl Spec.step
        ⟨selected mask (ops.foldl Spec.step ⟨flux, none⟩).base, none⟩).base[k]? = some x ∧
      IsDust c ((Op.init a b z :: ops2).foldl Spec.step
        ⟨selected mask (ops.foldl Spec.step ⟨flux, none⟩).base, none⟩).ext k w d ∧
      IsIgm c hi ((Op.init a b z :: ops2).foldl Spec.step
        ⟨selected mask (ops.foldl Spec.step ⟨flux, none⟩).base, none⟩).ext k w g ∧ v.flux[k]? = some (x * d * g) := by
  have h := inv_run c (pairwise_le_of_lt hs) ops _ _ _ (inv_make c axis flux hd hi hl) hr
  have C := copy_of_masked (by rw [h.axis_eq]; exact hs) (fun hn => (noExt_len h hn).2) hm
  have hb := base_kept h C
  set s := ops.foldl Spec.step ⟨flux, none⟩ with hsdef
  have la : mask.length = axis.length := by rw [C.len, h.axis_eq]
  have lb : mask.length = s.base.length := by rw [la, h.blen]
  have hsm : (selected mask axis).Pairwise (· ≤ ·) :=
    pairwise_le_of_lt (List.Pairwise.sublist (selected_sublist mask _) hs)
  have hua : u.axis = selected mask axis := by rw [C.axis_eq, h.axis_eq]
  -- the copy with its extinctions disabled is configured in the same way
  have hinv : Inv c (selected mask axis) hd hi { u with noExt := [], flux := selected mask s.base } ⟨selected mask s.base, none⟩ := by
    refine ⟨hua, by rw [← h.hd_eq]; exact C.hd, by rw [← h.hi_eq]; exact C.hi, ?_, ?_, fun _ => ⟨rfl, rfl⟩, fun _ _ _ _ _ he => by cases he⟩ <;>
      simp only [selected_length mask _ lb, selected_length mask _ la]
  have hsame : init c { u with noExt := [], flux := selected mask s.base } a b z = init c u a b z ∨
      ∃ e, (init c u a b z).2 ≠ .ok e := by
    by_cases hq : (init c u a b z).2 = .ok ()
    · left
      by_cases hu : u.noExt = []
      · rw [if_pos hu] at hb
        have : ({ u with noExt := [], flux := selected mask s.base } : T K) = u := by
          rw [← hu, ← hb]
        rw [this]
      · rw [if_neg hu] at hb
        have hne : selected mask s.base ≠ [] := by rw [← hb]; exact hu
        unfold init at hq ⊢
        simp only [ite_true] at hq ⊢
        split
        · rename_i g; rw [if_pos g] at hq; cases hq
        · rename_i g1
          rw [if_neg g1] at hq
          split
          · rename_i g; rw [if_pos g] at hq; cases hq
          · rename_i g2
            rw [if_neg g2] at hq
            split
            · rename_i g; rw [if_pos g] at hq; cases hq
            · rename_i g3
              rw [if_neg g3] at hq
              split
              · rename_i g; rw [if_pos g] at hq; cases hq
              · rename_i g4
                rw [if_neg g4] at hq
                cases hi2 : u.hasIgm <;> simp [hi2, hb] at hq ⊢ <;> (try (split <;> simp_all))
    · exact Or.inr ⟨(), hq⟩
  unfold run at hr2
  obtain ⟨x0, r1, r2⟩ := Res.bind_eq_ok.1 hr2
  cases x0
  have r1' : (init c u a b z).2 = .ok () := r1
  have hs1 : init c { u with noExt := [], flux := selected mask s.base } a b z = init c u a b z := by
    rcases hsame with h' | ⟨e, h'⟩
    · exact h'
    · cases e; exact absurd r1' h'
  have hstep := inv_step c hsm hinv (.init a b z) (show (init c { u with noExt := [], flux := selected mask s.base } a b z).2 = .ok () by rw [hs1]; exact r1')
  have hstep' : Inv c (selected mask axis) hd hi (init c u a b z).1 (Spec.step ⟨selected mask s.base, none⟩ (.init a b z)) := by
    rw [← hs1]; exact hstep
  have H := inv_run c hsm ops2 _ _ _ hstep' r2
  set s2 := (Op.init a b z :: ops2).foldl Spec.step ⟨selected mask s.base, none⟩ with hs2
  have H' : Inv c (selected mask axis) hd hi v s2 := H
  cases hext : s2.ext with
  | none =>
    obtain ⟨h1, h2⟩ := H'.off hext
    obtain ⟨x, hx⟩ := getElem_some (l := s2.base) (k := k) (by rw [H'.blen]; exact (List.getElem?_eq_some_iff.1 hw).1)
    exact ⟨x, 1, 1, hx, rfl, rfl, by rw [h2, hx, mul_one, mul_one]⟩
  | some y =>
    obtain ⟨a', b', z', kd, i⟩ := y
    obtain ⟨_, _, _, _, _, _, _, _, _, _, _, _, _, h14⟩ := H'.on _ _ _ _ _ hext
    obtain ⟨x, d, g, e1, e2, e3, e4, e5, e6⟩ := h14 k w hw
    rw [hext] at e4 e5
    exact ⟨x, d, g, e1, e4, e5, e6⟩

/-- **C172, IGM.** On the copy, until its extinctions are configured again, no IGM index has any effect: the call answers
that nothing was applied. -/
theorem C172_igm_without_effect (c : Curves K) (axis flux : List K) (hs : axis.Pairwise (· < ·)) (hl : flux.length = axis.length)
    (hd hi : Bool) (ops : List (Op K)) (t u : T K) (hr : run c (make axis flux hd hi) ops = .ok t) (mask : List K)
    (hm : masked mask t = .ok u) (i : Int) (x : Bool) (hok : (applyIgm c u i).2 = .ok x) :
    x = false ∧ (applyIgm c u i).1.flux = u.flux := by
  have h := inv_run c (pairwise_le_of_lt hs) ops _ _ _ (inv_make c axis flux hd hi hl) hr
  have C := copy_of_masked (by rw [h.axis_eq]; exact hs) (fun hn => (noExt_len h hn).2) hm
  unfold applyIgm at hok ⊢
  split at hok
  · cases hok
  · rename_i g1
    rw [if_neg g1]
    split at hok
    · rename_i g2
      rw [if_pos g2]
      rw [C.igmEnd] at hok
      simp at hok
      exact ⟨hok, rfl⟩
    · rename_i g2
      rw [if_neg g2]
      rw [C.igmEnd] at hok ⊢
      simp at hok
      exact ⟨hok, rfl⟩

/-! ## When the copy is refused -/

/-- The range of the extinctions is inside the axis. -/
def RangeIn (t : T K) : Prop := t.noExt ≠ [] →
  t.kstart < t.axis.length ∧ t.kend < t.axis.length ∧ t.dustC.length = t.axis.length ∧ t.igmC.length = t.axis.length

theorem rangeIn_run (c : Curves K) {axis : List K} (hs : axis.Pairwise (· ≤ ·)) {hd hi : Bool} :
    ∀ (ops : List (Op K)) (t t' : T K) (s : Spec K), Inv c axis hd hi t s → RangeIn t → run c t ops = .ok t' → RangeIn t'
  | [], t, t', s, _, h, hr => by cases hr; exact h
  | o :: os, t, t', s, hv, h, hr => by
    unfold run at hr
    obtain ⟨x, h1, h2⟩ := Res.bind_eq_ok.1 hr
    cases x
    refine rangeIn_run c hs os _ t' _ (inv_step c hs hv o h1) ?_ h2
    have hv' := inv_step c hs hv o h1
    intro hn
    have hlen : (step c t o).1.dustC.length = (step c t o).1.axis.length ∧
        (step c t o).1.igmC.length = (step c t o).1.axis.length := by
      cases he : (Spec.step s o).ext with
      | none => exact absurd (hv'.off he).1 hn
      | some v =>
        obtain ⟨a, b, z, kd, i⟩ := v
        obtain ⟨_, _, _, _, _, _, _, _, _, l1, l2, _⟩ := hv'.on _ _ _ _ _ he
        rw [hv'.axis_eq]; exact ⟨l1, l2⟩
    refine ⟨?_, ?_, hlen⟩
    all_goals
      rw [hv'.axis_eq, ← hv.axis_eq]
      cases o with
      | init a b z =>
        obtain ⟨e1, e2, _, _, _, _, _, _, _, _, e3, e4, _⟩ := init_ok (c := c) (t := t) (ka := a) (kb := b) (z := z) h1
        first
          | (have : (step c t (.init a b z)).1.kstart = a.toNat := e3
             rw [this]; omega)
          | (have : (step c t (.init a b z)).1.kend = b.toNat := e4
             rw [this]; omega)
      | dust k =>
        have e : (step c t (.dust k)).1.kstart = t.kstart ∧ (step c t (.dust k)).1.kend = t.kend ∧
            (step c t (.dust k)).1.noExt = t.noExt := by
          simp only [step, applyDust]
          split
          · exact ⟨rfl, rfl, rfl⟩
          · split
            · exact ⟨rfl, rfl, rfl⟩
            · generalize applyLoop t.axis t.noExt t.flux t.dustC t.igmC _ t.kstart t.kend = r
              cases r <;> exact ⟨rfl, rfl, rfl⟩
        have := h (by rw [← e.2.2]; exact hn)
        obtain ⟨ea, eb, _⟩ := e
        omega
      | igm k =>
        have e : (step c t (.igm k)).1.kstart = t.kstart ∧ (step c t (.igm k)).1.kend = t.kend ∧
            (step c t (.igm k)).1.noExt = t.noExt := by
          simp only [step, applyIgm]
          split
          · exact ⟨rfl, rfl, rfl⟩
          · split
            · exact ⟨rfl, rfl, rfl⟩
            · cases t.igmEnd with
              | none => exact ⟨rfl, rfl, rfl⟩
              | some e =>
                simp only
                generalize applyLoop t.axis t.noExt t.flux t.igmC t.dustC _ t.kstart e = r
                cases r <;> exact ⟨rfl, rfl, rfl⟩
        have := h (by rw [← e.2.2]; exact hn)
        obtain ⟨ea, eb, _⟩ := e
        omega
      | amplitude a =>
        have e : (step c t (.amplitude a)).1.kstart = t.kstart ∧ (step c t (.amplitude a)).1.kend = t.kend ∧
            ((step c t (.amplitude a)).1.noExt ≠ [] → t.noExt ≠ []) := by
          simp only [step, amplitude]
          split <;> simp
        have := h (e.2.2 hn)
        obtain ⟨ea, eb, _⟩ := e
        omega
      | disable =>
        exact absurd (by simp only [step, disable]; split <;> simp_all) hn
      | setFlux l =>
        exact absurd (by simp only [step, setFlux]; split <;> rfl) hn

theorem closedMaxIdx_throw (r : Range K) (l : List K) (e : Err) : Range.closedMaxIdx r l ≠ .throw e := by
  have hd : ∀ n, Range.decIdx n ≠ .throw e := by
    intro n; unfold Range.decIdx; split <;> simp
  unfold Range.closedMaxIdx
  split
  · exact hd _
  · split
    · exact hd _
    · simp

/-- **C172, refusals.** The copy of a template after any history of calls: a mask of another size is refused; when the
extinctions are not configured the copy is made; when they are configured on `[a, b]` with `a ≤ b`, it is made if a kept
sample is in the range, or if all are on the same side of it, and the extinctions of the copy are then enabled exactly when
one is in the range. It is refused otherwise: without any kept sample (`EMPTY_LIST`), or with kept samples on both sides of
the range and none in it (`CRANGE_NO_INTERSECTION`). -/
theorem C172_refused (c : Curves K) (axis flux : List K) (hs : axis.Pairwise (· < ·)) (hl : flux.length = axis.length)
    (hd hi : Bool) (ops : List (Op K)) (t : T K) (hr : run c (make axis flux hd hi) ops = .ok t) (mask : List K) :
    (mask.length ≠ axis.length → masked mask t = .throw .INTERNAL_ERROR) ∧
    (mask.length = axis.length →
      ((ops.foldl Spec.step ⟨flux, none⟩).ext = none → ∃ u, masked mask t = .ok u) ∧
      (∀ a b z kd i, (ops.foldl Spec.step ⟨flux, none⟩).ext = some (a, b, z, kd, i) → a ≤ b →
        ((∃ p ∈ kept mask, a ≤ (p : Int) ∧ (p : Int) ≤ b) → ∃ u, masked mask t = .ok u ∧ u.noExt ≠ []) ∧
        (kept mask = [] → masked mask t = .throw .EMPTY_LIST) ∧
        (kept mask ≠ [] → ((∀ p ∈ kept mask, (p : Int) < a) ∨ (∀ p ∈ kept mask, b < (p : Int))) →
          ∃ u, masked mask t = .ok u ∧ u.noExt = []) ∧
        ((∃ p ∈ kept mask, (p : Int) < a) → (∃ p ∈ kept mask, b < (p : Int)) →
          (∀ p ∈ kept mask, ¬ (a ≤ (p : Int) ∧ (p : Int) ≤ b)) → masked mask t = .throw .CRANGE_NO_INTERSECTION))) := by
  have h := inv_run c (pairwise_le_of_lt hs) ops _ _ _ (inv_make c axis flux hd hi hl) hr
  have hR := rangeIn_run c (pairwise_le_of_lt hs) ops _ _ _ (inv_make c axis flux hd hi hl) (fun hn => absurd rfl hn) hr
  set s := ops.foldl Spec.step ⟨flux, none⟩
  constructor
  · intro hne
    unfold masked
    rw [h.axis_eq, (C34_maskVector mask axis).2 hne, Res.bind_throw]
  intro hlen
  have base : masked mask t = if enabled t = false then .ok (maskedBase t (selected mask axis) (selected mask t.flux))
      else Res.at_ t.axis t.kstart >>= fun b => Res.at_ t.axis t.kend >>= fun e =>
        maskedExt mask t (maskedBase t (selected mask axis) (selected mask t.flux)) (Range.closedIdx ⟨b, e⟩ (selected mask axis)) := by
    unfold masked
    rw [h.axis_eq, (C34_maskVector mask axis).1 hlen, Res.bind_ok, (C34_maskVector mask t.flux).1 (by rw [h.flen, hlen]), Res.bind_ok]
  constructor
  · intro he
    rw [base, if_pos (by simp [enabled, (h.off he).1])]
    exact ⟨_, rfl⟩
  · intro a b z kd i he hab
    obtain ⟨e1, e2, e3, e4, e5, e6, e7, e8, e9, e10, e11, e12, e13, e14⟩ := h.on _ _ _ _ _ he
    obtain ⟨r1, r2, r3, r4⟩ := hR e2
    rw [h.axis_eq] at r1 r2 r3 r4
    have hbase : masked mask t = maskedExt mask t (maskedBase t (selected mask axis) (selected mask t.flux))
        (Range.closedIdx ⟨axis[t.kstart], axis[t.kend]⟩ (selected mask axis)) := by
      rw [base, if_neg (by simp [enabled, e2]), h.axis_eq, Res.at_of_lt r1, Res.bind_ok, Res.at_of_lt r2, Res.bind_ok]
    set r : Range K := ⟨axis[t.kstart], axis[t.kend]⟩ with hrdef
    have hs' : (selected mask axis).Pairwise (· < ·) := List.Pairwise.sublist (selected_sublist mask _) hs
    have hkl := selected_length mask axis hlen
    -- a kept sample, its wavelength
    have hget : ∀ (k p : Nat), (kept mask)[k]? = some p → ∃ (hk : k < (selected mask axis).length) (hp : p < axis.length),
        (selected mask axis)[k] = axis[p] := by
      intro k p hp
      have hpl := kept_lt mask hp
      have hkk : k < (selected mask axis).length := by rw [hkl]; exact (List.getElem?_eq_some_iff.1 hp).1
      have e := selected_get mask axis hlen hp
      rw [List.getElem?_eq_getElem hkk, List.getElem?_eq_getElem (by omega)] at e
      exact ⟨hkk, by omega, Option.some.inj e⟩
    have hmono : ∀ (i j : Nat) (hi : i < axis.length) (hj : j < axis.length), i < j → axis[i] < axis[j] :=
      fun i j hi hj hij => List.pairwise_iff_getElem.1 hs _ _ hi hj hij
    have hinj : ∀ (p : Nat) (hp : p < axis.length), r.Mem axis[p] ↔ a ≤ (p : Int) ∧ (p : Int) ≤ b := by
      intro p hp
      rw [hrdef, mem_idx hs (List.getElem?_eq_getElem r1) (List.getElem?_eq_getElem r2) (List.getElem?_eq_getElem hp), e6, e7]
      omega
    obtain ⟨c1, c2, c3, c4⟩ := C03_closed r (selected mask axis) hs'
    have hmem : ∀ x ∈ selected mask axis, ∃ p ∈ kept mask, ∃ hp : p < axis.length, x = axis[p] := by
      intro x hx
      obtain ⟨k, hk, rfl⟩ := List.mem_iff_getElem.1 hx
      have hk2 : k < (kept mask).length := by omega
      obtain ⟨_, q1, q2⟩ := hget k _ (List.getElem?_eq_getElem hk2)
      exact ⟨_, List.getElem_mem hk2, q1, q2⟩
    have outside : ∀ x, Range.closedIdx r (selected mask axis) = .throw .CRANGE_VECTBORDERS_OUTSIDERANGE →
        (∃ p ∈ kept mask, (p : Int) < a) → (∃ p ∈ kept mask, b < (p : Int)) → x := by
      intro x hc hlo hhi
      exfalso
      unfold Range.closedIdx at hc
      obtain ⟨p, hp1, hp2⟩ := hlo
      obtain ⟨q, hq1, hq2⟩ := hhi
      obtain ⟨kp, hkp⟩ := List.mem_iff_getElem?.1 hp1
      obtain ⟨kq, hkq⟩ := List.mem_iff_getElem?.1 hq1
      obtain ⟨p1, p2, p3⟩ := hget _ _ hkp
      obtain ⟨q1, q2, q3⟩ := hget _ _ hkq
      have h0 : 0 < (selected mask axis).length := by omega
      rw [List.getElem?_eq_getElem h0, List.getElem?_eq_getElem (show (selected mask axis).length - 1 < _ by omega)] at hc
      simp only at hc
      have f1 : (selected mask axis)[0] ≤ axis[p] := by
        rw [← p3]
        rcases Nat.eq_zero_or_pos kp with hz | hz
        · simp [hz]
        · exact le_of_lt (List.pairwise_iff_getElem.1 hs' _ _ h0 p1 hz)
      have f2 : axis[q] ≤ (selected mask axis)[(selected mask axis).length - 1] := by
        rw [← q3]
        rcases Nat.lt_or_eq_of_le (show kq ≤ (selected mask axis).length - 1 by omega) with hz | hz
        · exact le_of_lt (List.pairwise_iff_getElem.1 hs' _ _ q1 (by omega) hz)
        · simp [hz]
      have g1 : axis[p] ≤ r.e := by
        rw [hrdef]; exact le_of_lt (hmono _ _ p2 r2 (by rw [e7]; omega))
      have g2 : r.b ≤ axis[q] := by
        rw [hrdef]; exact le_of_lt (hmono _ _ r1 q2 (by rw [e6]; omega))
      rw [if_neg (by push Not; exact ⟨le_trans f1 g1, le_trans g2 f2⟩)] at hc
      have hne := closedMaxIdx_throw r (selected mask axis)
      generalize Range.closedMaxIdx r (selected mask axis) = m at hc hne
      cases m with
      | ok v => simp only at hc; split at hc <;> cases hc
      | throw e => exact hne e rfl
      | ub => cases hc
    have noneIn : (∀ p ∈ kept mask, ¬ (a ≤ (p : Int) ∧ (p : Int) ≤ b)) → ∀ x ∈ selected mask axis, ¬ r.Mem x := by
      intro hno x hx hxm
      obtain ⟨p, p1, p2, rfl⟩ := hmem x hx
      exact hno p p1 ((hinj p p2).1 hxm)
    have keptne : kept mask ≠ [] → selected mask axis ≠ [] := by
      intro hk h0
      rw [h0] at hkl
      exact hk (List.eq_nil_of_length_eq_zero hkl.symm)
    rw [hbase]
    refine ⟨?_, ?_, ?_, ?_⟩
    · rintro ⟨p, hp1, hp2⟩
      obtain ⟨kp, hkp⟩ := List.mem_iff_getElem?.1 hp1
      obtain ⟨p1, p2, p3⟩ := hget _ _ hkp
      obtain ⟨⟨i', j'⟩, hij⟩ := c2.2 ⟨_, List.getElem_mem p1, by rw [p3]; exact (hinj p p2).2 hp2⟩
      rw [hij]
      unfold maskedExt
      simp only
      have l1 : mask.length = t.noExt.length := by rw [e1, h.blen, hlen]
      rw [(C34_maskVector mask t.noExt).1 l1, Res.bind_ok,
        (C34_maskVector mask t.dustC).1 (by omega), Res.bind_ok,
        (C34_maskVector mask t.igmC).1 (by omega), Res.bind_ok]
      refine ⟨_, rfl, ?_⟩
      intro h0
      have h1 := selected_length mask t.noExt l1
      have h2 : (selected mask t.noExt) = [] := h0
      rw [h2] at h1
      have := (List.getElem?_eq_some_iff.1 hkp).1
      simp at h1; omega
    · intro hk
      rw [c3.2 (List.eq_nil_of_length_eq_zero (by rw [hkl, hk]; rfl))]
      unfold maskedExt
      simp only
      rw [if_neg (by decide)]
    · intro hk hside
      have hno : ∀ p ∈ kept mask, ¬ (a ≤ (p : Int) ∧ (p : Int) ≤ b) := by
        intro p hp hc
        rcases hside with hh | hh <;> have := hh p hp <;> omega
      have hout : Range.closedIdx r (selected mask axis) = .throw .CRANGE_VECTBORDERS_OUTSIDERANGE := by
        have h0 : 0 < (selected mask axis).length := List.length_pos_iff.2 (keptne hk)
        unfold Range.closedIdx
        rw [List.getElem?_eq_getElem h0, List.getElem?_eq_getElem (show (selected mask axis).length - 1 < _ by omega)]
        simp only
        rw [if_pos]
        rcases hside with hh | hh
        · right
          obtain ⟨p, p1, p2, p3⟩ := hmem _ (List.getElem_mem (show (selected mask axis).length - 1 < _ by omega))
          rw [p3]
          have := hh p p1
          exact hmono _ _ p2 r1 (by rw [e6]; omega)
        · left
          obtain ⟨p, p1, p2, p3⟩ := hmem _ (List.getElem_mem h0)
          rw [p3]
          have := hh p p1
          exact hmono _ _ r2 p2 (by rw [e7]; omega)
      rw [hout]
      exact ⟨_, rfl, rfl⟩
    · intro hlo hhi hno
      have hk : kept mask ≠ [] := by
        obtain ⟨p, hp, _⟩ := hlo
        exact List.ne_nil_of_mem hp
      rcases C03_closed_no_sample r (selected mask axis) (pairwise_le_of_lt hs') (keptne hk) (noneIn hno) with hc | hc
      · exact outside _ hc hlo hhi
      · rw [hc]
        unfold maskedExt
        simp only
        rw [if_neg (by decide)]

/-! ## Concrete cases -/

/-- A template with dust and IGM, configured on its samples 1 to 3. -/
def exT : Res (T ℚ) := run exCurves (make [1, 2, 3, 4, 5] [8, 8, 8, 8, 8] true true) [.init 1 3 2, .dust 0, .igm 0]

example : (exT >>= masked [0, 1, 0, 1, 1]) =
    .ok ⟨[2, 4, 5], [2 / 5, 4, 8], [8, 8, 8], 0, 0, some 0, 0, 1, none, [1 / 2, 1 / 2, 1], [1 / 10, 1, 1], true, true⟩ := by
  decide +kernel

example : (exT >>= masked [1, 0, 0, 0, 1]) = .throw .CRANGE_NO_INTERSECTION := by decide +kernel

example : ((exT >>= masked [0, 1, 0, 1, 1]) >>= fun u => run exCurves u [.dust 1]) >>= (fun u => .ok u.flux) =
    .ok [1 / 5, 2, 8] := by decide +kernel

/-- **C172, IGM, counterexample.** The IGM index of the original can be changed or removed, and its flux follows; on the
copy the same calls return normally and leave the flux as it was, and the copy keeps the absorption of the original. -/
theorem C172_igm_counterexample :
    ∃ (t u : T ℚ), exT = .ok t ∧ masked [0, 1, 0, 1, 1] t = .ok u ∧
      (applyIgm exCurves t (-1)).2 = .ok true ∧ selected [0, 1, 0, 1, 1] (applyIgm exCurves t (-1)).1.flux = [4, 4, 8] ∧
      (applyIgm exCurves u (-1)).2 = .ok false ∧ (applyIgm exCurves u (-1)).1.flux = [2 / 5, 4, 8] :=
  ⟨⟨[1, 2, 3, 4, 5], [8, 2 / 5, 2 / 5, 4, 8], [8, 8, 8, 8, 8], 0, 0, some 0, 1, 3, some 2,
      [1, 1 / 2, 1 / 2, 1 / 2, 1], [1, 1 / 10, 1 / 10, 1, 1], true, true⟩,
    ⟨[2, 4, 5], [2 / 5, 4, 8], [8, 8, 8], 0, 0, some 0, 0, 1, none, [1 / 2, 1 / 2, 1], [1 / 10, 1, 1], true, true⟩,
    by decide +kernel, by decide +kernel, by decide +kernel, by decide +kernel, by decide +kernel, by decide +kernel⟩

end
end Tpl
end Amazed
