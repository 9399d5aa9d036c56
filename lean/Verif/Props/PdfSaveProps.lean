import Verif.Model.PdfSave
import Verif.Props.LogZPdfProps
import Mathlib.Tactic.Ring
import Mathlib.Tactic.Linarith
import Mathlib.Tactic.SplitIfs
import Mathlib.Tactic.FieldSimp

/-!
# C205, C206, C207: saved redshift PDF, its attributes, reliability
-/

set_option autoImplicit true
set_option linter.unusedVariables false
set_option linter.unusedSimpArgs false
set_option linter.unusedSectionVars false
namespace Amazed
namespace PdfSave

variable {K : Type} [Field K] [LinearOrder K]

/-- The grid of the PDF is that of its parameters, and there is a value per redshift. -/
def Sound (one : ZParam K → Res (List K)) (eps : K) (p : LogPdf K) : Prop :=
  listGrid one eps p.params = .ok p.zs ∧ p.vals.length = p.zs.length

theorem checkSizes_ok {p q : LogPdf K} (h : p.checkSizes = .ok q) : q = p ∧ p.vals.length = p.zs.length := by
  unfold LogPdf.checkSizes at h
  split_ifs at h with h1
  cases h
  exact ⟨rfl, Classical.not_not.1 h1⟩

theorem checkSizes_of {p : LogPdf K} (h : p.vals.length = p.zs.length) : p.checkSizes = .ok p := by
  unfold LogPdf.checkSizes
  rw [if_neg (by rw [h]; exact fun a => a rfl)]

theorem listGrid_one (one : ZParam K → Res (List K)) (eps : K) (q : ZParam K) : listGrid one eps [q] = one q := by
  show (one q >>= fun z => Res.ok z) = one q
  cases one q <;> rfl

theorem make_sound {one : ZParam K → Res (List K)} {eps low : K} {ps : List (ZParam K)} {vals : List (Option K)} {p : LogPdf K}
    (h : make one eps low ps vals = .ok p) : Sound one eps p ∧ p.params = ps ∧ (vals ≠ [] → p.vals = vals) := by
  unfold make at h
  obtain ⟨zs, h1, h2⟩ := Res.bind_eq_ok.1 h
  cases vals with
  | nil =>
    obtain ⟨e, h3⟩ := checkSizes_ok h2
    subst e
    exact ⟨⟨h1, h3⟩, rfl, fun a => absurd rfl a⟩
  | cons v r =>
    obtain ⟨e, h3⟩ := checkSizes_ok h2
    subst e
    exact ⟨⟨h1, h3⟩, rfl, fun _ => rfl⟩

theorem make_of_sound {one : ZParam K → Res (List K)} {eps : K} (low : K) {p : LogPdf K} (h : Sound one eps p) :
    make one eps low p.params p.vals = .ok p := by
  obtain ⟨zs, vals, ps⟩ := p
  obtain ⟨h1, h2⟩ := h
  dsimp only at h1 h2
  unfold make
  dsimp only
  rw [h1, Res.bind_ok]
  cases vals with
  | nil =>
    have : zs = [] := List.length_eq_zero_iff.1 (by rw [← h2]; rfl)
    subst this
    rfl
  | cons v r => exact checkSizes_of h2

theorem interp_sound {p q : LogPdf K} {target : List K} (h : p.interpolateOnGrid target = .ok q) :
    q.zs = target ∧ q.params = p.params ∧ q.vals.length = q.zs.length := by
  unfold LogPdf.interpolateOnGrid at h
  split_ifs at h
  obtain ⟨out, -, h2⟩ := Res.bind_eq_ok.1 h
  obtain ⟨e, h3⟩ := checkSizes_ok h2
  subst e
  exact ⟨rfl, rfl, h3⟩

theorem convert_sound {one : ZParam K → Res (List K)} {stale : K → Res K} (hs : ∀ s x, stale s = .ok x → x = s) {eps : K} {p q : LogPdf K}
    {fine : Bool} (hp : Sound one eps p) (h : p.convertToRegular one stale fine = .ok q) : Sound one eps q ∧ q.params.length = 1 := by
  unfold LogPdf.convertToRegular at h
  by_cases hr : p.isRegular = true
  · rw [if_pos hr] at h
    cases h
    refine ⟨hp, ?_⟩
    unfold LogPdf.isRegular at hr
    simpa using hr
  · rw [if_neg hr] at h
    split at h
    · next p0 p1 rest hps =>
      cases fine with
      | true =>
        rw [if_pos rfl] at h
        split_ifs at h
        obtain ⟨s, h1, h2⟩ := Res.bind_eq_ok.1 h
        obtain ⟨t, h3, h4⟩ := Res.bind_eq_ok.1 h2
        obtain ⟨e1, e2, e3⟩ := interp_sound h4
        have := hs _ _ h1
        subst this
        refine ⟨⟨?_, e3⟩, by rw [e2]; rfl⟩
        rw [e2, e1, listGrid_one]
        exact h3
      | false =>
        rw [if_neg (by decide)] at h
        obtain ⟨t, h3, h4⟩ := Res.bind_eq_ok.1 h
        obtain ⟨e1, e2, e3⟩ := interp_sound h4
        refine ⟨⟨?_, e3⟩, by rw [e2]; rfl⟩
        rw [e2, e1, listGrid_one]
        exact h3
    · cases h

theorem extra_sound {one : ZParam K → Res (List K)} {eps : K} {p q : LogPdf K} {z : K} (hp : Sound one eps p)
    (h : p.extrapolateRight one z = .ok q) : Sound one eps q ∧ q.params.length = 1 ∧ ∀ a ∈ q.params, z ≤ a.zmax := by
  unfold LogPdf.extrapolateRight at h
  split at h
  · next a ha =>
    split_ifs at h with hz
    · cases h
      refine ⟨hp, by rw [ha]; rfl, ?_⟩
      rw [ha]
      intro b hb
      rw [List.mem_singleton.1 hb]
      exact hz
    · obtain ⟨zs, h1, h2⟩ := Res.bind_eq_ok.1 h
      obtain ⟨vals, h3, h4⟩ := Res.bind_eq_ok.1 h2
      obtain ⟨e, h5⟩ := checkSizes_ok h4
      subst e
      refine ⟨⟨?_, h5⟩, rfl, ?_⟩
      · rw [listGrid_one]; exact h1
      · intro b hb
        rw [List.mem_singleton.1 hb]
  · cases h

theorem applyAll_sound {one : ZParam K → Res (List K)} {stale : K → Res K} (hs : ∀ s x, stale s = .ok x → x = s) {eps : K} :
    ∀ (l : List (Op K)) (p q : LogPdf K), Sound one eps p → applyAll one stale l p = .ok q → Sound one eps q
  | [], p, q, hp, h => by cases h; exact hp
  | o :: r, p, q, hp, h => by
    obtain ⟨p', h1, h2⟩ := Res.bind_eq_ok.1 h
    refine applyAll_sound hs r p' q ?_ h2
    cases o with
    | regular fine => exact (convert_sound hs hp h1).1
    | extend z => exact (extra_sound hp h1).1

theorem rows_map : ∀ ps : List (ZParam K),
    rows (ps.map ZParam.zmin) (ps.map ZParam.zmax) (ps.map ZParam.zstep) (ps.map ZParam.zcenter) = ps
  | [] => rfl
  | a :: r => by
    show (⟨a.zmin, a.zmax, a.zstep, a.zcenter⟩ : ZParam K) :: rows _ _ _ _ = _
    rw [rows_map r]

theorem rows_first : ∀ ps : List (ZParam K), (∀ q ∈ ps, q.zcenter = none) →
    rows (ps.map ZParam.zmin) (ps.map ZParam.zmax) (ps.map ZParam.zstep) ((ps.map ZParam.zmin).map fun _ => none) = ps
  | [], _ => rfl
  | a :: r, h => by
    show (⟨a.zmin, a.zmax, a.zstep, none⟩ : ZParam K) :: rows _ _ _ _ = _
    rw [rows_first r fun q hq => h q (List.mem_cons_of_mem _ hq)]
    have := h a List.mem_cons_self
    obtain ⟨x, y, z, c⟩ := a
    dsimp only at this
    subst this; rfl

/-- A PDF of a solver, after any conversions to a regular grid and extensions, is read back from what is saved of it with the same grid, the same
values and the same parameters. -/
theorem C205_saved_partial {one : ZParam K → Res (List K)} {stale : K → Res K} (hs : ∀ s x, stale s = .ok x → x = s) {eps low : K}
    {ps : List (ZParam K)} {vals : List (Option K)} {p0 p : LogPdf K} (hm : make one eps low ps vals = .ok p0) (l : List (Op K))
    (ha : applyAll one stale l p0 = .ok p) : load one eps low (save p) false = .ok p := by
  have h := applyAll_sound hs l p0 p (make_sound hm).1 ha
  unfold load buildParams
  rw [if_neg (by decide)]
  show make one eps low (rows _ _ _ _) p.vals = _
  rw [show rows (save p).zmin (save p).zmax (save p).zstep (save p).zcenter = p.params from rows_map p.params]
  exact make_of_sound low h

/-- The same for the PDF of the first pass, saved without centres, when its grid has no window. -/
theorem C205_firstpass {one : ZParam K → Res (List K)} {eps low : K} {ps : List (ZParam K)} {vals : List (Option K)} {p : LogPdf K}
    (hm : make one eps low ps vals = .ok p) (hc : ∀ q ∈ ps, q.zcenter = none) : load one eps low (save p) true = .ok p := by
  obtain ⟨h, hp, -⟩ := make_sound hm
  unfold load buildParams
  rw [if_pos rfl]
  show make one eps low (rows _ _ _ _) p.vals = _
  rw [show rows (save p).zmin (save p).zmax (save p).zstep ((save p).zmin.map fun _ => none) = p.params from
    rows_first p.params (by rw [hp]; exact hc)]
  exact make_of_sound low h

/-- Saved values that are not as many as the redshifts of the saved grid are refused. -/
theorem C205_size {one : ZParam K → Res (List K)} {eps low : K} {s : Saved K} {first : Bool} {zs : List K}
    (hg : listGrid one eps (buildParams s first) = .ok zs) (h0 : s.proba ≠ []) (hl : s.proba.length ≠ zs.length) :
    load one eps low s first = .throw .INTERNAL_ERROR := by
  unfold load make
  rw [hg, Res.bind_ok]
  cases hp : s.proba with
  | nil => exact absurd hp h0
  | cons a r =>
    rw [hp] at hl
    unfold LogPdf.checkSizes
    exact if_pos hl

/-- Attributes of the final PDF: `Native` ones are those of the PDF itself, the others those of the PDF on its fine regular grid. -/
theorem C206_final_partial {one : ZParam K → Res (List K)} {stale : K → Res K} {eps low : K} {ps : List (ZParam K)} {vals : List (Option K)}
    {p : LogPdf K} (hm : make one eps low ps vals = .ok p) (first : Saved K) (grid : Bool) :
    pdfAttribute one eps low stale (save p) first ⟨false, true, grid⟩ = .ok (if grid then p.zs.map some else p.vals) ∧
    ∀ q, p.convertToRegular one stale true = .ok q →
      pdfAttribute one eps low stale (save p) first ⟨false, false, grid⟩ = .ok (if grid then q.zs.map some else q.vals) := by
  have h : load one eps low (save p) false = .ok p := by
    unfold load buildParams
    rw [if_neg (by decide)]
    show make one eps low (rows _ _ _ _) p.vals = _
    rw [show rows (save p).zmin (save p).zmax (save p).zstep (save p).zcenter = p.params from rows_map p.params]
    exact make_of_sound low (make_sound hm).1
  constructor
  · unfold pdfAttribute
    rw [h, Res.bind_ok]
    rfl
  · intro q hq
    unfold pdfAttribute
    rw [h, Res.bind_ok]
    show (p.convertToRegular one stale true >>= fun p => Res.ok (if grid then p.zs.map some else p.vals)) = _
    rw [hq, Res.bind_ok]

theorem lastTwo_some : ∀ {l : List K} {a b : K}, lastTwo l = some (a, b) ↔ ∃ r, l = r ++ [b, a]
  | [], a, b => by simp [lastTwo]
  | [x], a, b => by
    constructor
    · intro h; cases h
    · rintro ⟨r, h⟩
      have := congrArg List.length h
      simp at this
  | [x, y], a, b => by
    constructor
    · intro h; cases h; exact ⟨[], rfl⟩
    · rintro ⟨r, h⟩
      have h1 := congrArg List.length h
      simp at h1
      subst h1
      simp at h
      rw [h.1, h.2]; rfl
  | x :: y :: z :: r, a, b => by
    have e : lastTwo (x :: y :: z :: r) = lastTwo (y :: z :: r) := rfl
    rw [e, lastTwo_some]
    constructor
    · rintro ⟨t, h⟩; exact ⟨x :: t, by rw [h]; rfl⟩
    · rintro ⟨t, h⟩
      cases t with
      | nil =>
        have := congrArg List.length h
        simp at this
      | cons u t =>
        simp only [List.cons_append, List.cons.injEq] at h
        exact ⟨t, h.2⟩

theorem regularTo_sound {one : ZParam K → Res (List K)} {stale : K → Res K} (hs : ∀ s x, stale s = .ok x → x = s) {eps z : K}
    {p q : LogPdf K} (hp : Sound one eps p) (h : regularTo one stale (some z) p = .ok q) :
    Sound one eps q ∧ q.params.length = 1 ∧ ∀ a ∈ q.params, z ≤ a.zmax := by
  unfold regularTo at h
  obtain ⟨p1, h1, h2⟩ := Res.bind_eq_ok.1 h
  obtain ⟨h3, h4⟩ := convert_sound hs hp h1
  dsimp only at h2
  split at h2
  · cases h2
  · next a r ha =>
    split_ifs at h2 with hz
    · exact extra_sound h3 h2
    · cases h2
      refine ⟨h3, h4, ?_⟩
      intro b hb
      rw [ha] at h4 hb
      have : r = [] := List.length_eq_zero_iff.1 (by simpa using h4)
      subst this
      rw [List.mem_singleton.1 hb]
      exact not_lt.1 hz

/-- C207: a PDF of several sub-grids is put on the fine one: the grid the network is given begins where the whole PDF does and has the step of the
sub-grids, which is one step. -/
theorem C207_fine {one : ZParam K → Res (List K)} {stale : K → Res K} {z : K} {p q : LogPdf K} {a b : ZParam K} {r : List (ZParam K)}
    (hp : p.params = a :: b :: r) (h : regularTo one stale (some z) p = .ok q) :
    ∃ c, q.params = [c] ∧ c.zmin = a.zmin ∧ c.zstep = b.zstep ∧ c.zcenter = a.zcenter ∧ c.zmax = max a.zmax z ∧ ∀ d ∈ r, d.zstep = b.zstep := by
  unfold regularTo at h
  obtain ⟨p1, h1, h2⟩ := Res.bind_eq_ok.1 h
  unfold LogPdf.convertToRegular at h1
  have hr : ¬ p.isRegular = true := by
    unfold LogPdf.isRegular
    rw [hp]
    simp
  rw [if_neg hr, hp] at h1
  dsimp only at h1
  rw [if_pos rfl] at h1
  split_ifs at h1 with hss
  obtain ⟨s, -, h4⟩ := Res.bind_eq_ok.1 h1
  obtain ⟨t, -, h5⟩ := Res.bind_eq_ok.1 h4
  obtain ⟨-, e2, -⟩ := interp_sound h5
  have hst : ∀ d ∈ r, d.zstep = b.zstep := by
    have : LogPdf.sameSubSteps b.zstep r = true := by simpa using hss
    intro d hd
    simpa using List.all_eq_true.1 this d hd
  dsimp only at h2 e2
  rw [e2] at h2
  dsimp only at h2
  split_ifs at h2 with hz
  · unfold LogPdf.extrapolateRight at h2
    rw [e2] at h2
    dsimp only at h2
    rw [if_neg (not_le.2 hz)] at h2
    obtain ⟨zs, -, h6⟩ := Res.bind_eq_ok.1 h2
    obtain ⟨vals, -, h7⟩ := Res.bind_eq_ok.1 h6
    obtain ⟨e, -⟩ := checkSizes_ok h7
    subst e
    exact ⟨_, rfl, rfl, rfl, rfl, (max_eq_right hz.le).symm, hst⟩
  · cases h2
    exact ⟨_, e2, rfl, rfl, rfl, (max_eq_left (not_lt.1 hz)).symm, hst⟩

/-- What the network is given: as many values as it wants, on a regular grid whose interval reaches that of the network, whose end is at most that of
the network and whose last step is at least that of the network, both up to the tolerance. -/
theorem C207_checked_partial [IsStrictOrderedRing K] {one : ZParam K → Res (List K)} {stale : K → Res K} (hs : ∀ s x, stale s = .ok x → x = s)
    {eps low tol zend ratio : K} {n : Nat} {s : Saved K} {v : List (Option K)} (h : relInput one eps low tol stale n zend ratio s = .ok v) :
    ∃ (q : ZParam K) (zs r : List K) (a b : K), one q = .ok zs ∧ zs.length = n ∧ v.length = n ∧ zend ≤ q.zmax ∧ zs = r ++ [b, a] ∧
      (0 < a → a - zend ≤ tol * a) ∧ (a = 0 → 0 ≤ zend) ∧ (0 < b + 1 → 0 < a + 1 → ratio ≤ (1 + tol) * ((a + 1) / (b + 1))) := by
  unfold relInput at h
  obtain ⟨p, h1, h2⟩ := Res.bind_eq_ok.1 h
  obtain ⟨p', h3, h4⟩ := Res.bind_eq_ok.1 h2
  obtain ⟨⟨k1, k2⟩, k3, k4⟩ := regularTo_sound hs (make_sound h1).1 h3
  split at h4
  · cases h4
  · next a0 ha0 =>
    split_ifs at h4 with g1 g2
    split at h4
    · cases h4
    · next a b hab =>
      split_ifs at h4 with g3 g4
      cases h4
      obtain ⟨r, hr⟩ := lastTwo_some.1 hab
      have ea : a0 = a := by
        rw [hr] at ha0
        simpa using ha0.symm
      subst ea
      have hn : p'.vals.length = n := Classical.not_not.1 g1
      cases hps : p'.params with
      | nil => rw [hps] at k3; cases k3
      | cons q t =>
        rw [hps] at k3 k1 k4
        have : t = [] := List.length_eq_zero_iff.1 (by simpa using k3)
        subst this
        rw [listGrid_one] at k1
        refine ⟨q, p'.zs, r, a0, b, k1, by rw [← k2, hn], hn, k4 q List.mem_cons_self, hr, ?_, ?_, ?_⟩
        · intro hpos
          unfold tooFar at g2
          rw [if_neg hpos.ne'] at g2
          have : (a0 - zend) / a0 ≤ tol := by simpa using g2
          rwa [div_le_iff₀ hpos] at this
        · intro h0
          unfold tooFar at g2
          rw [if_pos h0] at g2
          exact not_lt.1 (by simpa using g2)
        · intro hb ha
          have hq : 0 < (a0 + 1) / (b + 1) := div_pos ha hb
          have := not_lt.1 g4
          rw [div_le_iff₀ hq] at this
          linarith

/-! ## Concrete cases -/

/-- Linear sampling. -/
def lin : ZParam ℚ → Res (List ℚ) := ZParam.linGrid (1 / 1000000)

/-- The grid and the values of a PDF. -/
def view (r : Res (LogPdf ℚ)) : Option (List ℚ × List (Option ℚ)) :=
  match r with
  | .ok p => some (p.zs, p.vals)
  | _ => none

/-- A grid with one window. -/
def psA : List (ZParam ℚ) := [⟨0, 4, 1, none⟩, ⟨1, 3, 1 / 2, some 2⟩]

/-- Values on this grid. -/
def valsA : List (Option ℚ) := [some 0, some 1, some 2, some 3, some 2, some 1, some 0]

example : view (make lin (1 / 100000000) (-1000) psA valsA) = some ([0, 1, 3 / 2, 2, 5 / 2, 3, 4], valsA) := by decide +kernel

example : view (make lin (1 / 100000000) (-1000) psA valsA >>= applyAll lin .ok [.regular true, .extend 5]) =
    some ([0, 1 / 2, 1, 3 / 2, 2, 5 / 2, 3, 7 / 2, 4, 9 / 2, 5],
      [some 0, some (1 / 2), some 1, some 2, some 3, some 2, some 1, some (1 / 2), some 0, some 0, some 0]) := by decide +kernel

/-- The hypotheses of `C205_saved_partial`, `C205_firstpass` and `C206_final_partial`. -/
example : (∃ p0 p, make lin (1 / 100000000) (-1000) psA valsA = .ok p0 ∧ applyAll lin .ok [.regular true, .extend 5] p0 = .ok p) ∧
    ∃ p, make lin (1 / 100000000) (-1000) [⟨0, 2, 1, none⟩] [some 0, some 1, none] = .ok p := by
  constructor
  · cases h : make lin (1 / 100000000) (-1000) psA valsA with
    | ok p0 =>
      cases h' : applyAll lin .ok [.regular true, .extend 5] p0 with
      | ok p => exact ⟨p0, p, rfl, h'⟩
      | throw e =>
        have : view (make lin (1 / 100000000) (-1000) psA valsA >>= applyAll lin .ok [.regular true, .extend 5]) = none := by
          rw [h, Res.bind_ok, h']; rfl
        exact absurd this (by decide +kernel)
      | ub =>
        have : view (make lin (1 / 100000000) (-1000) psA valsA >>= applyAll lin .ok [.regular true, .extend 5]) = none := by
          rw [h, Res.bind_ok, h']; rfl
        exact absurd this (by decide +kernel)
    | throw e =>
      have : view (make lin (1 / 100000000) (-1000) psA valsA) = none := by rw [h]; rfl
      exact absurd this (by decide +kernel)
    | ub =>
      have : view (make lin (1 / 100000000) (-1000) psA valsA) = none := by rw [h]; rfl
      exact absurd this (by decide +kernel)
  · cases h : make lin (1 / 100000000) (-1000) [⟨0, 2, 1, none⟩] [some 0, some 1, none] with
    | ok p0 => exact ⟨p0, rfl⟩
    | throw e =>
      have : view (make lin (1 / 100000000) (-1000) [⟨0, 2, 1, none⟩] [some 0, some 1, none]) = none := by rw [h]; rfl
      exact absurd this (by decide +kernel)
    | ub =>
      have : view (make lin (1 / 100000000) (-1000) [⟨0, 2, 1, none⟩] [some 0, some 1, none]) = none := by rw [h]; rfl
      exact absurd this (by decide +kernel)

/-- The first pass PDF of a grid with a centred window cannot be read back: the grid of what is saved has three redshifts. -/
theorem C205_firstpass_counterexample :
    view (make lin (1 / 100000000) (-1000) [⟨0, 4, 2, some 3⟩] [some 0, some 1]) = some ([1, 3], [some 0, some 1]) ∧
    load lin (1 / 100000000) (-1000) ⟨[0], [4], [2], [some 3], [some 0, some 1]⟩ true = .throw .INTERNAL_ERROR ∧
    view (load lin (1 / 100000000) (-1000) ⟨[0], [4], [2], [some 3], [some 0, some 1]⟩ false) = some ([1, 3], [some 0, some 1]) := by
  refine ⟨by decide +kernel, ?_, by decide +kernel⟩
  refine C205_size (zs := [0, 2, 4]) ?_ (by simp) (by simp)
  show listGrid lin (1 / 100000000) [⟨0, 4, 2, none⟩] = _
  rw [listGrid_one]
  decide +kernel

/-- Reading `zstep[1]` after the resize as something else: the regular PDF is saved with a step which is not that of its grid. -/
theorem C205_stale_counterexample :
    view (make lin (1 / 100000000) (-1000) psA valsA >>= applyAll lin (fun _ => .ok 1) [.regular true] >>= fun p =>
      load lin (1 / 100000000) (-1000) (save p) false) = none ∧
    view (make lin (1 / 100000000) (-1000) psA valsA >>= applyAll lin (fun _ => .ok 1) [.regular true]) =
      some ([0, 1, 2, 3, 4], [some 0, some 1, some 3, some 1, some 0]) := by decide +kernel

/-- The first pass PDF asked by name: the final one is given. -/
theorem C206_first_counterexample :
    (pdfAttribute lin (1 / 100000000) (-1000) .ok ⟨[0], [2], [1], [none], [some 0, some 1, some 2]⟩ ⟨[0], [2], [2], [none], [some 5, some 6]⟩
      ⟨true, true, false⟩) = .ok [some 0, some 1, some 2] := by decide +kernel

/-- A network trained on redshifts 0, 1, 3, 7 (constant ratio 2 of `1+z`): a PDF on 0, 7/3, 14/3, 7 (linear, last ratio 24/17) is refused, the step being
too small, but one on 1, 3, 5, 7 with a network of ratio 5/4 whose grid of four points begins above 3 is not. -/
theorem C207_coarse_counterexample :
    (relInput lin (1 / 100000000) (-1000) (1 / 1000000) .ok 4 7 2 ⟨[0], [7], [7 / 3], [none], [some 0, some 1, some 2, some 3]⟩) =
      .throw .INCOMPATIBLE_PDF_MODELSHAPES ∧
    (relInput lin (1 / 100000000) (-1000) (1 / 1000000) .ok 4 7 (5 / 4) ⟨[1], [7], [2], [none], [some 0, some 1, some 2, some 3]⟩) =
      .ok [some 0, some 1, some 2, some 3] := by decide +kernel

end PdfSave
end Amazed
