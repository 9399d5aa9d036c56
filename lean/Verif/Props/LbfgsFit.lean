import Verif.Props.LbfgsBounds
import Mathlib.Tactic.Linarith

set_option linter.unusedVariables false
set_option linter.unusedSectionVars false

/-! # C147-C151: the whole fit, counterexamples -/

namespace Amazed
namespace Lbfgs

open Amp (LType)

variable {K : Type} [Field K] [LinearOrder K] [IsStrictOrderedRing K]

/-- **C149** The polynomial stored in the elements is the one of the final point, in the units of the spectrum: same value at every wavelength. -/
theorem C149_poly {c : Cfg K} {l : Lay} {norm : K} {pc : Polynom.Norm K} {r : List K} {p p' : P K} (h : Stored c l norm pc r p p') (hp : c.polyFit = true) (hn : norm ≠ 0) :
    ∃ q, unpackPoly c l pc r = .ok q ∧ ∀ w, q.value w = .ok (norm * p'.poly.value w) := by
  obtain ⟨q, k, h1, h2, h3⟩ := h.poly hp
  refine ⟨q, h1, fun w => ?_⟩
  have hs : q.scale ≠ 0 := by
    intro e
    unfold Polynom.Norm.getCoeffs at h2
    rw [if_pos e] at h2; cases h2
  obtain ⟨k', g1, g2⟩ := Polynom.C88_coeffs q hs
  rw [h2] at g1; cases g1
  rw [g2 w, h3]
  congr 1
  unfold Polynom.Poly.value
  field_simp

/-- **C149** The fit refuses an empty group and an empty support; with less samples than parameters the amplitudes are null with unknown uncertainties, and so is the polynomial when it is fitted; when the
signal to noise ratio of the linear fit is low, its result is kept. -/
theorem C149_cases (c : Cfg K) (x : Ext K) (s : Spc K) (xs idx : List Nat) (st : List (P K)) :
    (idx = [] → fit c x s xs idx st = .throw .INTERNAL_ERROR) ∧
    (∀ types, idx ≠ [] → typesOf st idx = .ok types → xs = [] → fit c x s xs idx st = .throw .INTERNAL_ERROR) ∧
    (∀ types st', idx.Nodup → idx ≠ [] → typesOf st idx = .ok types → xs ≠ [] → xs.length < (layout c types).nddl → fit c x s xs idx st = .ok st' →
      st'.length = st.length ∧ (∀ i, i ∉ idx → st'[i]? = st[i]?) ∧
      ∀ i ∈ idx, ∃ p e, st[i]? = some p ∧ Amp.setAmplitude p.a (some 0) none = .ok e ∧ st'[i]? = some { p with a := e, poly := if c.polyFit then ⟨0, 0, 0⟩ else p.poly }) ∧
    (∀ types m pc s1 s2 pb, idx ≠ [] → typesOf st idx = .ok types → xs ≠ [] → (layout c types).nddl ≤ xs.length → maxAbs s xs 0 = .ok m → m ≠ 0 → polyInit c s xs = .ok pc →
      each (fun _ p => .ok (velIni c p)) idx 0 st = .ok s1 → x.svd s1 = .ok s2 → problem c (layout c types) (1 / m) pc idx s2 = .ok pb →
      fit c x s xs idx st = if x.lowSnr s2 then .ok s2 else solve c x (layout c types) s (1 / m) pc xs idx pb s2) := by
  refine ⟨?_, ?_, ?_, ?_⟩
  · intro h; unfold fit; rw [if_pos h]
  · intro types h1 h2 h3
    unfold fit
    rw [if_neg h1, h2, Res.bind_ok, if_pos (by rw [h3]; simp)]
  · intro types st' hd h1 h2 h3 h4 h
    unfold fit at h
    have hx : ¬ xs.length < 1 := by
      intro e; exact h3 (List.length_eq_zero_iff.1 (by omega))
    rw [if_neg h1, h2, Res.bind_ok, if_neg hx, if_pos h4] at h
    obtain ⟨s1, g1, h⟩ := Res.bind_eq_ok.1 h
    obtain ⟨l1, e1, f1⟩ := each_spec _ _ _ _ hd g1
    by_cases hp : c.polyFit = true
    · rw [if_pos hp] at h
      obtain ⟨l2, e2, f2⟩ := each_spec _ _ _ _ hd h
      refine ⟨by rw [l2, l1], fun i hi => by rw [f2 i hi, f1 i hi], ?_⟩
      intro i hi
      obtain ⟨pos, hpos⟩ := List.getElem?_of_mem hi
      obtain ⟨p, p', q1, q2, q3⟩ := e1 pos i hpos
      unfold P.setAmp at q2
      obtain ⟨e, he, q2⟩ := Res.bind_eq_ok.1 q2
      cases q2
      obtain ⟨p2, p2', r1, r2, r3⟩ := e2 pos i hpos
      rw [q3] at r1; cases r1
      cases r2
      exact ⟨p, e, q1, he, by rw [r3, if_pos hp]⟩
    · rw [if_neg hp] at h
      cases h
      refine ⟨l1, fun i hi => f1 i hi, ?_⟩
      intro i hi
      obtain ⟨pos, hpos⟩ := List.getElem?_of_mem hi
      obtain ⟨p, p', q1, q2, q3⟩ := e1 pos i hpos
      unfold P.setAmp at q2
      obtain ⟨e, he, q2⟩ := Res.bind_eq_ok.1 q2
      cases q2
      exact ⟨p, e, q1, he, by rw [q3, if_neg hp]⟩
  · intro types m pc s1 s2 pb h1 h2 h3 h4 h5 h6 h7 h8 h9 h10
    unfold fit
    have hx : ¬ xs.length < 1 := by
      intro e; exact h3 (List.length_eq_zero_iff.1 (by omega))
    rw [if_neg h1, h2, Res.bind_ok, if_neg hx, if_neg (by omega), h5, Res.bind_ok, if_neg h6, h7, Res.bind_ok, h8, Res.bind_ok, h9, Res.bind_ok, h10, Res.bind_ok]

/-! ## The limit of the absorption -/

theorem maxNominal_spec : ∀ (l : List K) m, maxNominal l = some m → m ∈ l ∧ ∀ x ∈ l, x ≤ m := by
  intro l m h
  cases l with
  | nil => cases h
  | cons a l =>
    unfold maxNominal at h
    cases h
    have key : ∀ (l : List K) (a : K), (l.foldl max a = a ∨ l.foldl max a ∈ l) ∧ a ≤ l.foldl max a ∧ ∀ x ∈ l, x ≤ l.foldl max a := by
      intro l
      induction l with
      | nil => intro a; simp
      | cons b l ih =>
        intro a
        obtain ⟨g1, g2, g3⟩ := ih (max a b)
        rw [List.foldl_cons]
        refine ⟨?_, le_trans (le_max_left _ _) g2, ?_⟩
        · rcases g1 with g1 | g1
          · rcases max_choice a b with e | e
            · left; rw [g1, e]
            · right; rw [g1, e]; simp
          · right; exact List.mem_cons_of_mem _ g1
        · intro x hx
          rcases List.mem_cons.1 hx with rfl | hx
          · exact le_trans (le_max_right _ _) g2
          · exact g3 x hx
    obtain ⟨g1, g2, g3⟩ := key l a
    refine ⟨?_, ?_⟩
    · rcases g1 with g1 | g1
      · rw [g1]; simp
      · exact List.mem_cons_of_mem _ g1
    · intro x hx
      rcases List.mem_cons.1 hx with rfl | hx
      · exact g2
      · exact g3 x hx

/-- **C150** The amplitudes of absorption that the minimiser may propose: with `m` the largest absolute flux of the samples, an amplitude `A` (spectrum units) of an absorption element with a limit is in the box if and only if it is not negative and its strongest line is below `m` times the limit. -/
theorem C150_reach_partial {c : Cfg K} {st : List (P K)} {idx : List Nat} {types : List LType} {b : List (Cell K) × List (Cell K)} {m : K} (hne : types ≠ []) (hall : ∀ t ∈ types, t ≠ .all) (hl : types.length = idx.length)
    (h : bounds c (layout c types) st idx = .ok b) (hm : 0 < m) {pos i : Nat} (hi : idx[pos]? = some i) {p : P K} (hp : st[i]? = some p) (ha : p.a.type = .absorption) (hlim : 0 < p.a.absLimit)
    (hn : ∀ n ∈ p.a.nominal, 0 < n) :
    ∃ lo hi, b.1[pos]? = some (.val lo) ∧ b.2[pos]? = some (.val hi) ∧ ∀ A, (lo ≤ A * (1 / m) ∧ A * (1 / m) ≤ hi) ↔ (0 ≤ A ∧ ∀ n ∈ p.a.nominal, A * n ≤ m * p.a.absLimit) := by
  obtain ⟨B1, -, -⟩ := bounds_val hne hall hl h
  obtain ⟨p', w, e1, e2, e3, e4⟩ := B1 pos i hi
  rw [hp] at e1; cases e1
  unfold ampMax at e2
  rw [if_pos ⟨ha, hlim⟩] at e2
  cases hmx : maxNominal p.a.nominal with
  | none => rw [hmx] at e2; cases e2
  | some mx =>
    rw [hmx] at e2
    simp only at e2
    split_ifs at e2 with h0
    cases e2
    obtain ⟨g1, g2⟩ := maxNominal_spec _ _ hmx
    have hmx0 : 0 < mx := hn _ g1
    refine ⟨0, p.a.absLimit / mx, e3, e4, ?_⟩
    intro A
    have e : A * (1 / m) = A / m := by ring
    rw [e, le_div_iff₀ hmx0, div_mul_eq_mul_div, div_le_iff₀ hm, le_div_iff₀ hm, zero_mul, mul_comm p.a.absLimit m]
    constructor
    · rintro ⟨q1, q2⟩
      exact ⟨q1, fun n hn' => le_trans (mul_le_mul_of_nonneg_left (g2 n hn') q1) q2⟩
    · rintro ⟨q1, q2⟩
      exact ⟨q1, q2 mx g1⟩

/-- **C150** Whatever the minimiser does, the stored amplitude of a line of an absorption element is below the limit. -/
theorem C150_capped {e e' : Amp.Elt K} {A s : Option K} (h : Amp.setAmplitude e A s = .ok e') (ha : e.isEmission = false) (hlim : 0 < e.absLimit) : ∀ y, some y ∈ e'.fa → y ≤ e.absLimit := by
  unfold Amp.setAmplitude at h
  split_ifs at h with hc
  · cases h; intro y hy; have := (List.mem_replicate.1 hy).2; cases this
  · obtain ⟨t, ht, h⟩ := Res.bind_eq_ok.1 h
    cases h
    intro y hy
    simp only [List.mem_map] at hy
    obtain ⟨z, hz, hzy⟩ := hy
    obtain ⟨j, hj, rfl⟩ := List.getElem_of_mem hz
    have hlen := Res.tab_length _ ht
    obtain ⟨w, hw1, hw2⟩ := Res.tab_get _ ht j (by omega)
    rw [List.getElem?_eq_getElem hj] at hw1
    cases hw1
    obtain ⟨o, ho, hw2⟩ := Res.bind_eq_ok.1 hw2
    split_ifs at hw2
    · injection hw2 with hw2
      rw [← hw2] at hzy; cases hzy
    · obtain ⟨n, hn, hw2⟩ := Res.bind_eq_ok.1 hw2
      injection hw2 with hw2
      rw [← hw2] at hzy
      simp only at hzy
      unfold Amp.capAbs at hzy
      split_ifs at hzy with hcap
      · cases hzy; exact le_rfl
      · rw [hzy] at hcap
        by_contra hlt
        push Not at hlt
        exact hcap ⟨ha, hlim, by unfold Amp.vGt; simpa using hlt⟩

/-! ## Examples on the rationals -/

section Examples

/-- Elements of one line. -/
def exE (name : String) (t : LType) (lim : ℚ) : P ℚ :=
  ⟨⟨[⟨name, .strong⟩], t, decide (t ≠ .absorption), [1], [some 1], [some 0], lim, false, [false], false, [false]⟩, 100, 100, [0], [0], ⟨0, 0, 0⟩⟩

def exCfg : Cfg ℚ := ⟨true, false, false, 50, 200, 50, 200, 100, 100, -100, 100, 1000⟩

def exSpc : Spc ℚ := ⟨[1, 2, 3, 4, 5, 6, 7, 8], [0, 2, 0, 1, 0, 0, 1, 0], [1, 1, 1, 1, 1, 1, 1, 1], [1, 1, 1, 1, 1, 1, 1, 1]⟩

/-- A minimiser that evaluates two points, then returns `best`; elements of `out` are out of the range. -/
def exExt (out : List Nat) (trace : List (List ℚ)) (best : Option (List ℚ)) : Ext ℚ :=
  ⟨fun st => .ok st, fun _ => false, fun i _ _ _ => (out.contains i, [out.contains i]), fun i _ _ _ w _ => if w = 2 * (i + 1) then 1 else 0, fun _ _ => some (1 / 10), trace, best⟩

def exXs : List Nat := [0, 1, 2, 3, 4, 5, 6, 7]

/-- A fit of an emission and an absorption element, velocities within the bounds. -/
example : (match fit exCfg (exExt [] [[1, 1 / 2, 1, 1], [1 / 2, 1 / 4, 1, 1 / 2]] (some [1 / 2, 1 / 4, 1 / 2, 3 / 4])) exSpc exXs [0, 1] [exE "e" .emission 0, exE "a" .absorption 0, exE "o" .emission 0] with
    | .ok st => decide ((st.map fun p => p.a.fa) = [[some 1], [some (1 / 2)], [some 1]] ∧ (st.map fun p => p.a.fastd) = [[some (1 / 10)], [some (1 / 10)], [some 0]] ∧ (st.map fun p => (p.velE, p.velA)) = [(150, 100), (100, 100), (100, 100)])
    | _ => false) = true := by decide +kernel

/-- **C147**, negation: a group of one emission and two absorption elements. The bounds of the minimiser are not all set, whatever it does and whatever it returns. -/
theorem C147_counterexample (trace : List (List ℚ)) (best : Option (List ℚ)) : fit exCfg (exExt [] trace best) exSpc exXs [0, 1, 2] [exE "e" .emission 0, exE "a" .absorption 0, exE "b" .absorption 0] = .ub := by
  have hpb : ∃ pb, problem exCfg (layout exCfg [.emission, .absorption, .absorption]) (1 / 2) ⟨0, 0, 0, 0, 1⟩ [0, 1, 2] [exE "e" .emission 0, exE "a" .absorption 0, exE "b" .absorption 0] = .ok pb := by
    have e : (match problem exCfg (layout exCfg [.emission, .absorption, .absorption]) (1 / 2) ⟨0, 0, 0, 0, 1⟩ [0, 1, 2] [exE "e" .emission 0, exE "a" .absorption 0, exE "b" .absorption 0] with | .ok _ => true | _ => false) = true := by decide +kernel
    revert e
    cases problem exCfg (layout exCfg [.emission, .absorption, .absorption]) (1 / 2) ⟨0, 0, 0, 0, 1⟩ [0, 1, 2] [exE "e" .emission 0, exE "a" .absorption 0, exE "b" .absorption 0] with
    | ok pb => intro _; exact ⟨pb, rfl⟩
    | throw e => intro h; cases h
    | ub => intro h; cases h
  obtain ⟨pb, hpb⟩ := hpb
  have hm : maxAbs exSpc exXs 0 = .ok 2 := by decide +kernel
  rw [(C149_cases exCfg (exExt [] trace best) exSpc exXs [0, 1, 2] _).2.2.2 [.emission, .absorption, .absorption] 2 ⟨0, 0, 0, 0, 1⟩ [exE "e" .emission 0, exE "a" .absorption 0, exE "b" .absorption 0]
    [exE "e" .emission 0, exE "a" .absorption 0, exE "b" .absorption 0] pb (by decide) (by decide +kernel) (by decide) (by decide +kernel) hm (by norm_num) rfl (by decide +kernel) rfl hpb]
  show solve _ _ _ _ _ _ _ _ _ _ = _
  exact C147_gap_ub (by decide) rfl (by decide) rfl ⟨.absorption, by decide, by decide⟩ (by decide) hpb

/-- An emission element of two lines; the second line leaves the range when the velocity exceeds 150 km/s. -/
def exTwo (o : Bool) : P ℚ := ⟨⟨[⟨"a", .strong⟩, ⟨"b", .strong⟩], .emission, true, [1, 1], [some 1, some 1], [some 0, some 0], 0, false, [false, o], false, [false, o]⟩, 100, 100, [0, 0], [0, 0], ⟨0, 0, 0⟩⟩

def exTwoPrep (_ : Nat) (velE _ : ℚ) (_ : List ℚ) : Bool × List Bool := (false, [false, decide (150 < velE)])

def exTwoProf : Prof ℚ := fun _ _ _ _ w k => if w = 2 * (k + 1) then 1 else 0

/-- The cost at a point, after the evaluations at other points. -/
def costAfter (before : List (List ℚ)) (x : List ℚ) : Res ℚ :=
  evals (cost exCfg (layout exCfg [.emission]) exTwoPrep exTwoProf exSpc (1 / 2) ⟨0, 0, 0, 0, 1⟩ exXs [0]) before [exTwo false] >>= fun st =>
  cost exCfg (layout exCfg [.emission]) exTwoPrep exTwoProf exSpc (1 / 2) ⟨0, 0, 0, 0, 1⟩ exXs [0] x st >>= fun r => .ok r.2

/-- **C148**, negation: the cost given to the minimiser is not a function of the point. The amplitudes are set with the lines in range at the previous point, so that the same point has two costs. -/
theorem C148_path_counterexample : costAfter [] [1 / 2, 1 / 2] = .ok 2 ∧ costAfter [[1 / 2, 1]] [1 / 2, 1 / 2] = .ok 3 := by decide +kernel

/-- The hypotheses of `C148_cost_partial` are met by the first of these evaluations. -/
example : (match cost exCfg (layout exCfg [.emission]) exTwoPrep exTwoProf exSpc (1 / 2) ⟨0, 0, 0, 0, 1⟩ exXs [0] [1 / 2, 1 / 2] [exTwo false] with
    | .ok r => decide (r.2 = 2 ∧ (r.1.map fun p => (p.a.outside, p.a.outsideLine)) = [(false, [false, false])] ∧
        (exXs.map fun i => ((exSpc.flux.getD i 0 - physModel exCfg exTwoProf (1 / 2) ⟨0, 0, 0, 0, 1⟩ [0] [1 / 2, 1 / 2] r.1 (exSpc.axis.getD i 0) (exSpc.cont.getD i 0)) / exSpc.err.getD i 0) ^ 2).sum = 2)
    | _ => false) = true := by decide +kernel

/-- **C150**, negation: a spectrum of largest flux 1/10, an absorption element of limit 1. An amplitude 1/2, whose line is below the limit, is out of the bounds of the minimiser. -/
theorem C150_counterexample : ∃ b, bounds exCfg (layout exCfg [.absorption]) [exE "a" .absorption 1] [0] = .ok b ∧ ¬ InBox b [(1 / 2) * (1 / (1 / 10)), 1 / 2] ∧ InBox b [(1 / 20) * (1 / (1 / 10)), 1 / 2] := by
  refine ⟨([.val 0, .val (50 / 200)], [.val 1, .val 1]), by decide +kernel, ?_, ?_⟩
  · intro h
    have := (h 0 _ rfl).2 1 rfl
    norm_num at this
  · intro j v hj
    match j with
    | 0 =>
      simp at hj
      refine ⟨fun a ha => ?_, fun a ha => ?_⟩
      · simp at ha; rw [← ha, ← hj]; norm_num
      · simp at ha; rw [← ha, ← hj]; norm_num
    | 1 =>
      simp at hj
      refine ⟨fun a ha => ?_, fun a ha => ?_⟩
      · simp at ha; rw [← ha, ← hj]; norm_num
      · simp at ha; rw [← ha, ← hj]; norm_num
    | j + 2 => simp at hj

/-- **C150**, negation: a spectrum of largest flux 2. The minimiser is given the cost of an amplitude 2 of absorption; what is stored is the limit 1. -/
theorem C150_stored_counterexample : (match fit exCfg (exExt [] [] (some [1, 1 / 2])) exSpc exXs [0] [exE "a" .absorption 1] with | .ok st => decide ((st.map fun p => p.a.fa) = [[some 1]]) | _ => false) = true ∧
    ([1, 1 / 2] : List ℚ)[0]? = some (2 * (1 / 2)) := by decide +kernel

/-- **C151**, negation: three emission elements, the second one out of the range. The third one is in the range with an amplitude of 1 and no uncertainty; the first one has one. -/
theorem C151_counterexample : (match fit exCfg (exExt [1] [[1 / 2, 1 / 2, 1 / 2, 1 / 2]] (some [1, 1, 1 / 2, 1 / 2])) exSpc exXs [0, 1, 2] [exE "a" .emission 0, exE "b" .emission 0, exE "c" .emission 0] with
    | .ok st => decide ((st.map fun p => p.a.outside) = [false, true, false] ∧ (st.map fun p => p.a.fa) = [[some 2], [none], [some 1]] ∧ (st.map fun p => p.a.fastd) = [[some (1 / 10)], [none], [none]])
    | _ => false) = true := by decide +kernel

end Examples

/-! ## Uncertainties -/

theorem divStd_get : ∀ (ss : List (Option K)) (ns : List K) (r : List (Option K)), divStd ss ns = .ok r → ∀ (k : Nat) s n, ss[k]? = some s → ns[k]? = some n → ∃ q, r[k]? = some q ∧ Amp.vDiv s (some n) = .ok q := by
  intro ss
  induction ss with
  | nil => intro ns r h k s n hs; simp at hs
  | cons a ss ih =>
    intro ns r h k s n hs hn
    cases ns with
    | nil => simp at hn
    | cons b ns =>
      unfold divStd at h
      obtain ⟨q, h1, h⟩ := Res.bind_eq_ok.1 h
      obtain ⟨r', h2, h⟩ := Res.bind_eq_ok.1 h
      cases h
      cases k with
      | zero => simp at hs hn; subst hs hn; exact ⟨q, rfl, h1⟩
      | succ k => simp at hs hn; obtain ⟨w, e1, e2⟩ := ih ns r' h2 k s n hs hn; exact ⟨w, by simpa using e1, e2⟩

/-- **C151** When the elements of the group up to this one are in the range, all the lines in the range of the element have the same uncertainty, the one of the amplitude of the element, whatever their nominal amplitudes (not null). -/
theorem C151_uncertainty_partial {e0 e : Amp.Elt K} {a sd : K} {s : List (Option K)} (hw : Amp.WF e0) (hg : e0.gOutside = false) (h : Amp.setAmplitude e0 (some a) (some sd) = .ok e) (hs : divStd e.fastd e.nominal = .ok s) :
    ∀ (k : Nat) n, e0.nominal[k]? = some n → (e0.gOutsideLine[k]? = some false → n ≠ 0 → s[k]? = some (some sd)) ∧ (e0.gOutsideLine[k]? = some true → s[k]? = some none) ∧
      (e0.gOutsideLine[k]? = some false → n = 0 → s[k]? = some none) := by
  obtain ⟨e', h1, ⟨fa, fs, h2⟩, -, h4⟩ := Amp.C67_set e0 a (some sd) hw hg
  rw [h] at h1; cases h1
  intro k n hn
  obtain ⟨g1, g2⟩ := h4 k n hn
  have hnom : e.nominal[k]? = some n := by rw [h2]; exact hn
  refine ⟨?_, ?_, ?_⟩
  · intro ho h0
    obtain ⟨q, q1, q2⟩ := divStd_get _ _ _ hs k _ n (g2 ho).2 hnom
    simp only [Option.map_some, Amp.vDiv] at q2
    rw [if_neg h0] at q2
    injection q2 with q2
    rw [q1, ← q2, mul_div_cancel_right₀ _ h0]
  · intro ho
    obtain ⟨q, q1, q2⟩ := divStd_get _ _ _ hs k _ n (g1 ho).2 hnom
    simp only [Amp.vDiv] at q2
    injection q2 with q2
    rw [q1, ← q2]
  · intro ho h0
    obtain ⟨q, q1, q2⟩ := divStd_get _ _ _ hs k _ n (g2 ho).2 hnom
    subst h0
    simp [Amp.vDiv] at q2
    rw [q1, ← q2]

end Lbfgs
end Amazed
