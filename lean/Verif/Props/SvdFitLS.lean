import Verif.Props.SvdFitProps

set_option linter.unusedVariables false
set_option linter.unusedSectionVars false

/-! # The joint fit is a least squares fit in the physical units (C77) -/

namespace Amazed
namespace SvdFit
open Amp (SameElt)

variable {K G : Type} [Field K] [LinearOrder K] [IsStrictOrderedRing K] [LinearOrder G]

/-! ## Specification -/

/-- The flux of an element of unit amplitude at wavelength `x`, from all its lines visible in the spectrum. -/
def unitFlux (e : EltSup.Elt) (pe : Amp.Elt K) (prof : Nat → K → K) (x c : K) : K :=
  if pe.gOutside = true then 0
  else ∑ k ∈ Finset.range e.n, if (e.theo k).out = false ∧ pe.gOutsideLine[k]? = some false then
    (if pe.isEmission then Amp.lineAmp pe 1 ((pe.nominal[k]?).getD 0) * prof k x
      else -(c * (Amp.lineAmp pe 1 ((pe.nominal[k]?).getD 0) * prof k x))) else 0

/-- The same for element `i` at sample `p`. -/
def unitAt (env : Env K G) (st : List (Amp.Elt K)) (p i : Nat) : K := match env.es[i]?, st[i]? with
  | some e, some pe => unitFlux e.sup pe (env.prof i) (env.axis.getD p 0) (env.cont.getD p 0)
  | _, _ => 0

/-- The joint model at sample `p`: the elements of `idx` with the amplitudes `a`, and the polynomial `q` if the offsets are
enabled. -/
def joint (env : Env K G) (st : List (Amp.Elt K)) (idx : List Nat) (a : Nat → K) (q : K × K × K) (p : Nat) : K :=
  (∑ k ∈ Finset.range idx.length, a k * unitAt env st p (idx.getD k 0)) +
    if env.offsets then q.1 + q.2.1 * env.axis.getD p 0 + q.2.2 * (env.axis.getD p 0 * env.axis.getD p 0) else 0

/-- Chi-square of the joint model on a list of samples. -/
def jointChi2 (env : Env K G) (st : List (Amp.Elt K)) (idx : List Nat) (xs : List ℤ) (a : Nat → K) (q : K × K × K) : K :=
  (xs.map fun p => ((env.flux.getD p.toNat 0 - joint env st idx a q p.toNat) / env.err.getD p.toNat 0) ^ 2).sum

/-- Scalar product of a row with coefficients. -/
def dot (x : List K) (c : Nat → K) : K := ∑ k ∈ Finset.range x.length, x.getD k 0 * c k

/-- Weighted sum of squares of the residuals of a linear system. -/
def wss (rows : List (Row K)) (c : Nat → K) : K := (rows.map fun r => r.w * (r.y - dot r.x c) ^ 2).sum

/-- The solver minimises the weighted sum of squares when the weights are positive. -/
def Exact (solve : Solver K) : Prop := ∀ rows, (∀ r ∈ rows, 0 < r.w) → ∀ c, wss rows (solve rows).1 ≤ wss rows c

/-- The fit is given consistent vectors. -/
structure EnvOk (env : Env K G) (st : List (Amp.Elt K)) (idx : List Nat) : Prop where
  cont : env.cont.length = env.axis.length
  flux : env.flux.length = env.axis.length
  err : env.err.length = env.axis.length
  err0 : ∀ s ∈ env.err, s ≠ 0
  bounds : ∀ e ∈ env.es, ∀ p, EltList.Covered e p → 0 ≤ p ∧ p < env.axis.length
  elts : env.es.length = st.length
  wf : ∀ pe ∈ st, Amp.WF pe
  nom : NomOk st
  lines : ∀ (i : Nat) e pe, env.es[i]? = some e → st[i]? = some pe → e.sup.n = pe.lines.length
  tiny : 0 < env.tiny
  inRange : ∀ i ∈ idx, i < st.length
  nodup : idx.Nodup

/-! ## Setting amplitudes -/

theorem setAmplitude_total {pe : Amp.Elt K} (hw : Amp.WF pe) (a s : Option K) :
    ∃ pe', Amp.setAmplitude pe a s = .ok pe' ∧ SameElt pe pe' ∧ Amp.WF pe' := by
  by_cases h : a = none ∨ pe.gOutside = true
  · obtain ⟨pe', h1, h2, h3, h4, _⟩ := Amp.C67_set_nan pe a s h
    obtain ⟨f, g, rfl⟩ := h2
    exact ⟨_, h1, ⟨f, g, rfl⟩, ⟨hw.nominal, h3, h4, hw.outL, hw.gOutL⟩⟩
  · push Not at h
    obtain ⟨x, rfl⟩ := Option.ne_none_iff_exists'.1 h.1
    obtain ⟨pe', h1, h2, h3, _⟩ := Amp.C67_set pe x s hw (by simpa using h.2)
    exact ⟨pe', h1, h2, h3⟩

theorem setAmplitude_same {pe pe' : Amp.Elt K} (h : SameElt pe pe') (a s : Option K) : Amp.setAmplitude pe' a s = Amp.setAmplitude pe a s := by
  obtain ⟨f, g, rfl⟩ := h
  rfl

/-- Setting several amplitudes in turn. -/
def setMany : List (Nat × Option K × Option K) → List (Amp.Elt K) → Res (List (Amp.Elt K))
  | [], st => .ok st
  | v :: l, st => setAmp v.1 v.2.1 v.2.2 st >>= fun st' => setMany l st'

theorem setMany_total : ∀ (l : List (Nat × Option K × Option K)) (st : List (Amp.Elt K)), (l.map (·.1)).Nodup → (∀ v ∈ l, v.1 < st.length) →
    (∀ pe ∈ st, Amp.WF pe) →
    ∃ st', setMany l st = .ok st' ∧ st'.length = st.length ∧ (∀ pe ∈ st', Amp.WF pe) ∧ (∀ j : Nat, j ∉ l.map (·.1) → st'[j]? = st[j]?) ∧
      ∀ v ∈ l, ∃ pe pe', st[v.1]? = some pe ∧ Amp.setAmplitude pe v.2.1 v.2.2 = .ok pe' ∧ st'[v.1]? = some pe' ∧ SameElt pe pe' := by
  intro l
  induction l with
  | nil => intro st _ _ hw; exact ⟨st, rfl, rfl, hw, fun _ _ => rfl, by simp⟩
  | cons v l ih =>
    intro st hd hlt hw
    have hv := hlt v (by simp)
    obtain ⟨pe', h1, h2, h3⟩ := setAmplitude_total (hw st[v.1] (List.getElem_mem _)) v.2.1 v.2.2
    rw [List.map_cons, List.nodup_cons] at hd
    have hw' : ∀ pe ∈ st.set v.1 pe', Amp.WF pe := by
      intro pe hpe
      rcases List.mem_or_eq_of_mem_set hpe with h | h
      · exact hw pe h
      · rw [h]; exact h3
    obtain ⟨st', i1, i2, i3, i4, i5⟩ := ih (st.set v.1 pe') hd.2 (fun w hwl => by simpa using hlt w (by simp [hwl])) hw'
    have hset : (st.set v.1 pe')[v.1]? = some pe' := List.getElem?_set_self hv
    refine ⟨st', ?_, by simpa using i2, i3, ?_, ?_⟩
    · unfold setMany setAmp
      rw [Res.at_of_lt hv, Res.bind_ok, h1, Res.bind_ok, Res.bind_ok]
      exact i1
    · intro j hj
      rw [List.map_cons, List.mem_cons] at hj
      push Not at hj
      rw [i4 j hj.2, List.getElem?_set_ne (fun h => hj.1 h.symm)]
    · intro w hwl
      rcases List.mem_cons.1 hwl with rfl | hwl
      · exact ⟨st[w.1], pe', List.getElem?_eq_getElem hv, h1, by rw [i4 w.1 hd.1]; exact hset, h2⟩
      · obtain ⟨p, p', e1, e2, e3, e4⟩ := i5 w hwl
        have hne : v.1 ≠ w.1 := by
          intro h
          exact hd.1 (by rw [h]; exact List.mem_map.2 ⟨w, hwl, rfl⟩)
        rw [List.getElem?_set_ne hne] at e1
        exact ⟨p, p', e1, e2, e3, e4⟩

theorem foldL_setMany (c s : Option K) : ∀ (l : List Nat) (st : List (Amp.Elt K)),
    EltList.foldL (fun i st => setAmp i c s st) l st = setMany (l.map fun i => (i, c, s)) st := by
  intro l
  induction l with
  | nil => intro st; rfl
  | cons i l ih =>
    intro st
    unfold EltList.foldL
    rw [List.map_cons, setMany]
    congr 1
    funext st'
    exact ih st'

/-- The amplitudes set by the joint fit. -/
def fitted (norm : K) (sol : (Nat → K) × (Nat → K)) (sq : K → K) (k : Nat) (l : List Nat) : List (Nat × Option K × Option K) :=
  l.mapIdx fun m i => (i, some (sol.1 (k + m) / norm), some (sq (sol.2 (k + m)) / norm))

theorem setFitted_setMany (norm : K) (sol : (Nat → K) × (Nat → K)) (sq : K → K) : ∀ (l : List Nat) (k : Nat) (st : List (Amp.Elt K)),
    setFitted norm sol sq l k st = setMany (fitted norm sol sq k l) st := by
  intro l
  induction l with
  | nil => intro k st; rfl
  | cons i l ih =>
    intro k st
    unfold setFitted fitted
    rw [List.mapIdx_cons, setMany]
    congr 1
    funext st'
    rw [ih]
    unfold fitted
    congr 2
    funext m j
    rw [show k + 1 + m = k + (m + 1) by omega]

theorem fitted_fst (norm : K) (sol : (Nat → K) × (Nat → K)) (sq : K → K) (k : Nat) (l : List Nat) : (fitted norm sol sq k l).map (·.1) = l := by
  unfold fitted
  apply List.ext_getElem?
  intro m
  rw [List.getElem?_map, List.getElem?_mapIdx]
  cases h : l[m]? <;> rfl

/-! ## Values of the model -/

theorem modelAll_sum (e : EltSup.Elt) (em : Bool) (fl : Nat → EltSup.LineFlux K) (x c : K) :
    modelAll e em fl x c = ∑ k ∈ Finset.range e.n, if (e.theo k).out = false then EltSup.contrib em (fl k) x c else 0 := by
  unfold modelAll
  split
  · rename_i h
    unfold EltSup.Elt.outside at h
    rw [List.all_eq_true] at h
    symm
    apply Finset.sum_eq_zero
    intro k hk
    rw [if_neg]
    rw [h k (List.mem_range.2 (Finset.mem_range.1 hk))]
    simp
  · apply EltSup.foldl_sum
    intro y k
    cases (e.theo k).out <;> simp

theorem modelAll_unit {pe pe' : Amp.Elt K} (e : EltSup.Elt) (prof : Nat → K → K) (x c : K) (hw : Amp.WF pe) (hn : ∀ x ∈ pe.nominal, 0 ≤ x)
    (hl : e.n = pe.lines.length) (s : Option K) (h : Amp.setAmplitude pe (some 1) s = .ok pe') :
    modelAll e pe'.isEmission (fun k => ⟨(pe'.fa[k]?).getD none, prof k⟩) x c = unitFlux e pe prof x c := by
  rw [modelAll_sum]
  unfold unitFlux
  split
  · rename_i hg
    obtain ⟨q, h1, _, _, _, h2, _⟩ := Amp.C67_set_nan pe (some 1) s (Or.inr hg)
    rw [h] at h1; cases h1
    apply Finset.sum_eq_zero
    intro k _
    split
    · have : (pe'.fa[k]?).getD none = none := by
        cases hk : pe'.fa[k]? with
        | none => rfl
        | some v => exact h2 v (List.mem_of_getElem? hk)
      rw [this]
      rfl
    · rfl
  · rename_i hg
    have hg : pe.gOutside = false := by simpa using hg
    obtain ⟨q, h1, hsame, _, h2⟩ := Amp.C67_set pe 1 s hw hg
    rw [h] at h1; cases h1
    have hem : pe'.isEmission = pe.isEmission := by obtain ⟨f, g, rfl⟩ := hsame; rfl
    refine Finset.sum_congr rfl fun k hk => ?_
    rw [Finset.mem_range, hl] at hk
    have hnk : pe.nominal[k]? = some (pe.nominal[k]'(by rw [hw.nominal]; exact hk)) := List.getElem?_eq_getElem _
    obtain ⟨g1, g2⟩ := h2 k _ hnk
    have hok : pe.gOutsideLine[k]? = some (pe.gOutsideLine[k]'(by rw [hw.gOutL]; exact hk)) := List.getElem?_eq_getElem _
    cases ho : (e.theo k).out
    · simp only [true_and, if_true]
      cases hgo : pe.gOutsideLine[k]'(by rw [hw.gOutL]; exact hk)
      · rw [hgo] at hok
        rw [(g2 hok).1, if_pos hok, hem, hnk]
        simp only [Option.getD_some, EltSup.contrib]
        have hpos : 0 ≤ Amp.lineAmp pe 1 (pe.nominal[k]'(by rw [hw.nominal]; exact hk)) := by
          unfold Amp.lineAmp
          have := hn _ (List.getElem_mem (l := pe.nominal) (n := k) (by rw [hw.nominal]; exact hk))
          rw [one_mul]
          split
          · rename_i hc; exact le_min this hc.2.le
          · exact this
        rw [if_neg (not_lt.2 hpos)]
        split <;> ring
      · rw [hgo] at hok
        rw [(g1 hok).1, if_neg (by rw [hok]; simp)]
        rfl
    · simp

/-- **C77, normalisation.** The flux is divided by the largest of its absolute values over the samples of the fit and of the
initial value (`DBL_MIN`): it bounds all of them and is one of them. -/
theorem C77_norm (env : Env K G) : ∀ (xs : List ℤ) (m mx : K), maxAbs env xs m = .ok mx →
    m ≤ mx ∧ (∀ p ∈ xs, ∀ y, env.flux[p.toNat]? = some y → |y| ≤ mx) ∧
      (mx = m ∨ ∃ p ∈ xs, ∃ y, env.flux[p.toNat]? = some y ∧ mx = |y|) := by
  intro xs
  induction xs with
  | nil =>
    intro m mx h
    cases h
    exact ⟨le_refl _, by simp, Or.inl rfl⟩
  | cons p xs ih =>
    intro m mx h
    unfold maxAbs at h
    split at h
    · cases h
    · rw [Res.bind_eq_ok] at h
      obtain ⟨y, hy, h⟩ := h
      rw [Res.at_eq_ok] at hy
      obtain ⟨i1, i2, i3⟩ := ih _ _ h
      have hm : m ≤ mx := le_trans (by split <;> rename_i hc; exacts [le_of_lt hc, le_refl _]) i1
      have hym : |y| ≤ mx := le_trans (by split <;> rename_i hc; exacts [le_refl _, not_lt.1 hc]) i1
      refine ⟨hm, ?_, ?_⟩
      · intro q hq z hz
        rcases List.mem_cons.1 hq with rfl | hq
        · rw [hy] at hz; cases hz; exact hym
        · exact i2 q hq z hz
      · rcases i3 with h3 | ⟨q, hq, z, hz, e⟩
        · split at h3
          · exact Or.inr ⟨p, by simp, y, hy, h3⟩
          · exact Or.inl h3
        · exact Or.inr ⟨q, by simp [hq], z, hz, e⟩

theorem maxAbs_ok (env : Env K G) : ∀ (xs : List ℤ) (m : K), (∀ p ∈ xs, 0 ≤ p ∧ p < env.flux.length) → 0 < m →
    ∃ mx, maxAbs env xs m = .ok mx ∧ 0 < mx := by
  intro xs
  induction xs with
  | nil => intro m _ hm; exact ⟨m, rfl, hm⟩
  | cons p xs ih =>
    intro m hb hm
    obtain ⟨h1, h2⟩ := hb p (by simp)
    unfold maxAbs
    rw [if_neg (not_lt.2 h1), Res.at_of_lt (by omega : p.toNat < env.flux.length), Res.bind_ok]
    apply ih
    · exact fun q hq => hb q (by simp [hq])
    · split
      · rename_i h; exact lt_trans hm h
      · exact hm

/-- The equation of a sample, from the specification. -/
def specRow (env : Env K G) (st : List (Amp.Elt K)) (idx : List Nat) (norm : K) (p : ℤ) : Row K :=
  ⟨idx.map (unitAt env st p.toNat) ++ (if env.offsets then [1, env.axis.getD p.toNat 0, env.axis.getD p.toNat 0 * env.axis.getD p.toNat 0] else []),
    env.flux.getD p.toNat 0 * norm, 1 / ((env.err.getD p.toNat 0 * norm) * (env.err.getD p.toNat 0 * norm))⟩

theorem getD_of {l : List K} {p : Nat} (h : p < l.length) : l.getD p 0 = l[p] := FitAmp.getD_lt h

theorem dot_append (x y : List K) (c : Nat → K) : dot (x ++ y) c = dot x c + dot y (fun k => c (x.length + k)) := by
  unfold dot
  rw [List.length_append, Finset.sum_range_add]
  congr 1
  · refine Finset.sum_congr rfl fun k hk => ?_
    rw [Finset.mem_range] at hk
    congr 1
    simp only [List.getD_eq_getElem?_getD]
    rw [List.getElem?_append_left hk]
  · refine Finset.sum_congr rfl fun k hk => ?_
    congr 1
    simp only [List.getD_eq_getElem?_getD]
    rw [List.getElem?_append_right (by omega), Nat.add_sub_cancel_left]

theorem dot_spec (env : Env K G) (st : List (Amp.Elt K)) (idx : List Nat) (norm : K) (p : ℤ) (c : Nat → K) :
    dot (specRow env st idx norm p).x c = joint env st idx c (c idx.length, c (idx.length + 1), c (idx.length + 2)) p.toNat := by
  unfold specRow joint
  simp only
  rw [dot_append]
  congr 1
  · unfold dot
    rw [List.length_map]
    refine Finset.sum_congr rfl fun k hk => ?_
    rw [Finset.mem_range] at hk
    rw [mul_comm]
    congr 1
    simp only [List.getD_eq_getElem?_getD, List.getElem?_map, List.getElem?_eq_getElem hk, Option.map_some, Option.getD_some]
  · rw [List.length_map]
    split
    · unfold dot
      simp [Finset.sum_range_succ]
      ring
    · simp [dot]

theorem joint_scale (env : Env K G) (st : List (Amp.Elt K)) (idx : List Nat) (a : Nat → K) (q : K × K × K) (p : Nat) (t : K) :
    joint env st idx (fun k => a k * t) (q.1 * t, q.2.1 * t, q.2.2 * t) p = t * joint env st idx a q p := by
  unfold joint
  rw [mul_add, Finset.mul_sum]
  congr 1
  · refine Finset.sum_congr rfl fun k _ => ?_
    ring
  · split
    · ring
    · ring

/-- The weighted sum of squares of the normalised system is the chi-square of the rescaled amplitudes. -/
theorem wss_chi2 (env : Env K G) (st : List (Amp.Elt K)) (idx : List Nat) (norm : K) (hnorm : 0 < norm) (xs : List ℤ)
    (he : ∀ p ∈ xs, env.err.getD p.toNat 0 ≠ 0) (a : Nat → K) (q : K × K × K) (c : Nat → K)
    (hc : ∀ k, k < idx.length → c k = a k * norm)
    (hq : (c idx.length, c (idx.length + 1), c (idx.length + 2)) = (q.1 * norm, q.2.1 * norm, q.2.2 * norm) ∨ env.offsets = false) :
    wss (xs.map (specRow env st idx norm)) c = jointChi2 env st idx xs a q := by
  unfold wss jointChi2
  rw [List.map_map]
  congr 1
  apply List.map_congr_left
  intro p hp
  have hs := he p hp
  simp only [Function.comp]
  rw [dot_spec]
  have : joint env st idx c (c idx.length, c (idx.length + 1), c (idx.length + 2)) p.toNat = norm * joint env st idx a q p.toNat := by
    rw [← joint_scale]
    unfold joint
    congr 1
    · refine Finset.sum_congr rfl fun k hk => ?_
      rw [hc k (Finset.mem_range.1 hk)]
    · rcases hq with hq | hq
      · rw [hq]
      · rw [hq]; simp
  rw [this]
  unfold specRow
  simp only
  have hn := hnorm.ne'
  field_simp

/-- **C77** When the solver solves linear least squares problems, the amplitudes (and the polynomial) that the joint fit
sets minimise the chi-square of the joint model on the samples of the elements, in the units of the spectrum. -/
theorem C77_least_squares (env : Env K G) (solve : Solver K) (hsolve : Exact solve) (idx : List Nat) (st : List (Amp.Elt K))
    (hok : EnvOk env st idx) (xs : List ℤ) (hxs : EltList.supportIndexes env.es idx = .ok xs) (hne : idx ≠ [])
    (hnd : idx.length + (if env.offsets then 3 else 0) ≤ xs.length) :
    ∃ o q, linSolve env solve idx [] st = .ok o ∧ o.amps.length = idx.length ∧
      (env.offsets = true → o.poly = some q) ∧
      (∀ a' q', jointChi2 env st idx xs (fun k => o.amps.getD k 0) q ≤ jointChi2 env st idx xs a' q') ∧
      ∀ (k i : Nat), idx[k]? = some i → ∃ pe pe' s, st[i]? = some pe ∧ o.st[i]? = some pe' ∧
        Amp.setAmplitude pe (some (o.amps.getD k 0)) s = .ok pe' := by
  have hlen : 1 ≤ xs.length := by
    have : 1 ≤ idx.length := List.length_pos_of_ne_nil hne
    omega
  have hes : ∀ i ∈ idx, i < env.es.length := fun i hi => by rw [hok.elts]; exact hok.inRange i hi
  have hin : ∀ p ∈ xs, 0 ≤ p ∧ p < env.axis.length := by
    intro p hp
    obtain ⟨l, h1, _, h2⟩ := EltList.C74_support env.es idx hes
    rw [hxs] at h1; cases h1
    obtain ⟨i, _, e, h3, h4⟩ := (h2 p).1 hp
    exact hok.bounds e (List.mem_of_getElem? h3) p h4
  -- unit amplitudes
  obtain ⟨st1, s1, s2, s3, s4, s5⟩ := setMany_total (idx.map fun i => (i, (some 1 : Option K), (some 0 : Option K))) st
    (by simpa [Function.comp_def] using hok.nodup)
    (by intro v hv; obtain ⟨i, hi, rfl⟩ := List.mem_map.1 hv; exact hok.inRange i hi) hok.wf
  obtain ⟨mx, m1, m2⟩ := maxAbs_ok env xs env.tiny (fun p hp => by rw [hok.flux]; exact hin p hp) hok.tiny
  have hnorm : 0 < 1 / mx := one_div_pos.2 m2
  have herr : ∀ p ∈ xs, env.err.getD p.toNat 0 ≠ 0 := by
    intro p hp
    obtain ⟨h1, h2⟩ := hin p hp
    have hl : p.toNat < env.err.length := by rw [hok.err]; omega
    rw [getD_of hl]
    exact hok.err0 _ (List.getElem_mem _)
  -- the system
  have hrows : mapL (row env st1 idx (1 / mx)) xs = .ok (xs.map (specRow env st idx (1 / mx))) := by
    apply mapL_ok
    intro p hp
    obtain ⟨h1, h2⟩ := hin p hp
    have ha : p.toNat < env.axis.length := by omega
    have hf : p.toNat < env.flux.length := by rw [hok.flux]; exact ha
    have he : p.toNat < env.err.length := by rw [hok.err]; exact ha
    have hc : p.toNat < env.cont.length := by rw [hok.cont]; exact ha
    have hcols : mapL (colVal env st1 env.axis[p.toNat] env.cont[p.toNat]) idx = .ok (idx.map (unitAt env st p.toNat)) := by
      apply mapL_ok
      intro i hi
      obtain ⟨pe, pe', e1, e2, e3, e4⟩ := s5 (i, some 1, some 0) (List.mem_map.2 ⟨i, hi, rfl⟩)
      simp only at e1 e2 e3
      have hie := hes i hi
      unfold colVal
      rw [Res.at_of_lt hie, Res.bind_ok, Res.at_eq_ok.2 e3, Res.bind_ok]
      have hpe := List.mem_of_getElem? e1
      rw [modelAll_unit env.es[i].sup (env.prof i) _ _ (hok.wf pe hpe) (hok.nom pe hpe)
        (hok.lines i env.es[i] pe (List.getElem?_eq_getElem hie) e1) (some 0) e2]
      unfold unitAt
      rw [List.getElem?_eq_getElem hie, e1, getD_of ha, getD_of hc]
    unfold row
    rw [if_neg (not_lt.2 h1), Res.at_of_lt ha, Res.bind_ok, Res.at_of_lt hf, Res.bind_ok, Res.at_of_lt he, Res.bind_ok,
      Res.at_of_lt hc, Res.bind_ok, hcols, Res.bind_ok]
    simp only
    have hs := herr p hp
    rw [getD_of he] at hs
    rw [if_neg (mul_ne_zero hs hnorm.ne')]
    unfold specRow
    rw [getD_of ha, getD_of hf, getD_of he]
  have hw : ∀ r ∈ xs.map (specRow env st idx (1 / mx)), 0 < r.w := by
    intro r hr
    obtain ⟨p, hp, rfl⟩ := List.mem_map.1 hr
    unfold specRow
    simp only
    exact one_div_pos.2 (mul_self_pos.2 (mul_ne_zero (herr p hp) hnorm.ne'))
  have hmin := hsolve _ hw
  obtain ⟨sol, hsol⟩ : ∃ sol, sol = solve (xs.map (specRow env st idx (1 / mx))) := ⟨_, rfl⟩
  rw [← hsol] at hmin
  -- the amplitudes set
  obtain ⟨st2, t1, t2, t3, t4, t5⟩ := setMany_total (fitted (1 / mx) sol env.sq 0 idx) st1
    (by rw [fitted_fst]; exact hok.nodup)
    (by
      intro v hv
      have : v.1 ∈ (fitted (1 / mx) sol env.sq 0 idx).map (·.1) := List.mem_map.2 ⟨v, hv, rfl⟩
      rw [fitted_fst] at this
      rw [s2]; exact hok.inRange _ this) s3
  refine ⟨⟨(List.range idx.length).map fun k => sol.1 k / (1 / mx), (List.range idx.length).map fun k => some (env.sq (sol.2 k) / (1 / mx)),
    ((List.range idx.length).map fun k => sol.1 k / (1 / mx)).all fun a => !decide (a < 0), st2,
    if env.offsets then some (sol.1 idx.length / (1 / mx), sol.1 (idx.length + 1) / (1 / mx), sol.1 (idx.length + 2) / (1 / mx)) else none⟩,
    (sol.1 idx.length / (1 / mx), sol.1 (idx.length + 1) / (1 / mx),
    sol.1 (idx.length + 2) / (1 / mx)), ?_, ?_, ?_, ?_, ?_⟩
  · unfold linSolve
    rw [if_neg hne, hxs, Res.bind_ok, if_neg (by omega)]
    unfold toFit
    rw [if_pos rfl, Res.bind_ok, if_neg (by unfold nddl; omega), foldL_setMany, s1, Res.bind_ok, m1, Res.bind_ok]
    simp only
    rw [hrows, Res.bind_ok, ← hsol, setFitted_setMany, t1, Res.bind_ok]
  · simp
  · intro hoff
    simp [hoff]
  · intro a' q'
    have hget : ∀ k, k < idx.length → ((List.range idx.length).map fun k => sol.1 k / (1 / mx)).getD k 0 =
        sol.1 k / (1 / mx) := by
      intro k hk
      simp [List.getD_eq_getElem?_getD, List.getElem?_map, List.getElem?_range hk]
    simp only
    rw [← wss_chi2 env st idx (1 / mx) hnorm xs herr _ _ sol.1
      (by intro k hk; rw [hget k hk, div_mul_cancel₀ _ hnorm.ne'])
      (by left; simp only [div_mul_cancel₀ _ hnorm.ne'])]
    have := hmin (fun k => if k < idx.length then a' k * (1 / mx) else if k = idx.length then q'.1 * (1 / mx)
      else if k = idx.length + 1 then q'.2.1 * (1 / mx) else q'.2.2 * (1 / mx))
    rw [wss_chi2 env st idx (1 / mx) hnorm xs herr a' q' (fun k => if k < idx.length then a' k * (1 / mx) else if k = idx.length then q'.1 * (1 / mx)
      else if k = idx.length + 1 then q'.2.1 * (1 / mx) else q'.2.2 * (1 / mx))
      (by intro k hk; simp [hk]) (by left; simp)] at this
    exact this
  · intro k i hk
    obtain ⟨hkl, _⟩ := List.getElem?_eq_some_iff.1 hk
    have hmem : (i, some (sol.1 k / (1 / mx)), some (env.sq (sol.2 k) / (1 / mx))) ∈
        fitted (1 / mx) sol env.sq 0 idx := by
      unfold fitted
      rw [List.mem_iff_getElem?]
      exact ⟨k, by rw [List.getElem?_mapIdx, hk]; simp⟩
    obtain ⟨p1, p2, e1, e2, e3, _⟩ := t5 _ hmem
    simp only at e1 e2 e3
    obtain ⟨pe, pe', f1, f2, f3, f4⟩ := s5 (i, some 1, some 0) (List.mem_map.2 ⟨i, List.mem_of_getElem? hk, rfl⟩)
    simp only at f1 f3
    rw [f3] at e1; cases e1
    rw [setAmplitude_same f4] at e2
    refine ⟨pe, p2, some (env.sq (sol.2 k) / (1 / mx)), f1, e3, ?_⟩
    simp only
    have : ((List.range idx.length).map fun k => sol.1 k / (1 / mx)).getD k 0 =
        sol.1 k / (1 / mx) := by
      simp [List.getD_eq_getElem?_getD, List.getElem?_map, List.getElem?_range hkl]
    rw [this]
    exact e2

end SvdFit
end Amazed
