import Verif.Props.LmCandsProps
import Verif.Props.SvdFitProps

set_option linter.unusedVariables false
set_option linter.unusedSectionVars false

/-! # C108: the results of the final candidates -/

namespace Amazed
namespace LmCands
open LmResult SecondPass

variable {K S C : Type} [Field K] [LinearOrder K] [IsStrictOrderedRing K]

theorem findParent_iff (ids : List String) (p : String) : (∃ j, findParent ids p = some j) ↔ p ∈ ids := by
  unfold findParent
  have key : ∀ n, n ≤ ids.length → ((∃ j, (List.range n).foldl (fun acc j => if ids[j]? = some p then some j else acc) none = some j) ↔
      p ∈ ids.take n) := by
    intro n
    induction n with
    | zero => intro _; simp
    | succ n ih =>
      intro hn
      rw [List.range_succ, List.foldl_append, List.take_add_one, List.getElem?_eq_getElem (by omega : n < ids.length), Option.toList_some,
        List.mem_append, ← ih (by omega)]
      simp only [List.foldl_cons, List.foldl_nil, List.mem_singleton]
      rw [List.getElem?_eq_getElem (by omega : n < ids.length)]
      by_cases h : ids[n] = p
      · simp [h]
      · simp [h, eq_comm (a := p)]
  simpa using key ids.length le_rfl

/-- The candidate has no parent, or its parent is one of the first pass candidates. -/
def ParentKnown (ids : List String) (c : ZCand K) : Prop := c.parent = "" ∨ c.parent ∈ ids

theorem checkParent_ok (ids : List String) (c : ZCand K) :
    (checkParent ids c.parent = .ok () ∧ ParentKnown ids c) ∨ (checkParent ids c.parent = .throw .INTERNAL_ERROR ∧ ¬ ParentKnown ids c) := by
  unfold checkParent ParentKnown
  by_cases h : c.parent = ""
  · left; rw [if_pos h]; exact ⟨rfl, .inl h⟩
  · rw [if_neg h]
    cases hf : findParent ids c.parent with
    | none =>
      right
      refine ⟨rfl, ?_⟩
      rintro (h' | h')
      · exact h h'
      · obtain ⟨j, hj⟩ := (findParent_iff ids c.parent).2 h'
        rw [hf] at hj; simp at hj
    | some j => left; exact ⟨rfl, .inr ((findParent_iff ids c.parent).1 ⟨j, hf⟩)⟩

theorem differ_false {a b : Option K} (h : differ a b = false) : ∃ v, a = some v ∧ b = some v := by
  unfold differ at h
  split at h
  · simp only [ne_eq, decide_not, Bool.not_eq_false', decide_eq_true_eq] at h
    rename_i x y
    exact ⟨x, rfl, by rw [h]⟩
  · simp at h

theorem write_tplCont {V Z : Type} (k : Flt V S C) {r r' : LmRes Z V S C} {iz : Nat} {o : FitOut V S C} (ho : o.tplCol = none)
    (h : write r iz o = .ok r') : r'.tplCont = r.tplCont := by
  unfold write at h
  simp only [Res.bind_eq_ok] at h
  obtain ⟨a, ha, b, hb, c, hc, d, hd, t, ht, r2, hr2, e, he, f, hf, h⟩ := h
  obtain rfl := (Res.ok.inj h).symm
  rw [ho] at ht
  unfold copyCol at ht
  obtain rfl := Res.ok.inj ht
  unfold copyRatio at hr2
  split at hr2
  · obtain rfl := Res.ok.inj hr2; rfl
  · exact (setRatio_ok k hr2).2.1

/-- One candidate saved: the stored solutions at its redshift are given back to the model, which is fitted again; the results replace the
stored ones, and the merit is the stored one, unless the fit is random. -/
theorem saveCand_ok {σ : Type} (k : Flt (Option K) S C) {o : BOpts} {ops : Ops σ S C} {fit : Fit σ K (Option K) S C} {c : ZCand K}
    {x y : (σ × LmRes K (Option K) S C) × List (ZCand K × Option K × S × C)} (h : saveCand o ops fit c x = .ok y) :
    ∃ idx m s t w, getIndex x.1.2.redshifts c.z = .ok idx ∧ x.1.2.chi2[idx]? = some m ∧ ParentKnown o.ids c ∧ x.1.2.lmSol[idx]? = some s ∧
      x.1.2.contSol[idx]? = some t ∧ fit (ops.setVel s (ops.setCont t x.1.1)) c.z s t = .ok (y.1.1, w) ∧ FrameAll k idx x.1.2 y.1.2 ∧
      Written y.1.2 idx { w with tplCol := none } ∧ y.1.2.tplCont = x.1.2.tplCont ∧ (o.method ≠ "random" → differ m w.merit = false) ∧
      y.2 = x.2 ++ [(c, w.merit, w.sol, w.cont)] := by
  unfold saveCand at h
  simp only [Res.bind_eq_ok] at h
  obtain ⟨idx, h1, m, h2, _, h3, t, h4, s, h5, y', h6, m', h7, h⟩ := h
  rw [Res.at_eq_ok] at h2 h4 h5 h7
  have hpk : ParentKnown o.ids c := by
    rcases checkParent_ok o.ids c with h' | h'
    · exact h'.2
    · rw [h'.1] at h3; simp at h3
  split at h
  · simp at h
  rename_i hd
  simp only [Res.bind_eq_ok] at h
  obtain ⟨s', h8, t', h9, h⟩ := h
  obtain rfl := Res.ok.inj h
  rw [Res.at_eq_ok] at h8 h9
  have h6' := h6
  obtain ⟨z, s0, t0, w', e1, e2, e3, e4, e5, e6⟩ := fitAt_ok k h6
  simp only at e1 e2 e3 e4 e5
  rw [SecondPass.getIndex_ok h1, Option.some.injEq] at e1
  rw [h5, Option.some.injEq] at e2
  rw [h4, Option.some.injEq] at e3
  subst e1 e2 e3
  rw [Res.bind_eq_ok] at e4
  obtain ⟨w, g1, g2⟩ := e4
  obtain ⟨ws, w⟩ := w
  simp only [Res.ok.injEq, Prod.mk.injEq] at g2
  obtain ⟨rfl, rfl⟩ := g2
  have hm : m' = w.merit := by
    have := e6.chi2
    rw [h7, Option.some.injEq] at this
    exact this
  have hs : s' = w.sol := by
    have := e6.sol
    rw [h8, Option.some.injEq] at this
    exact this
  have ht : t' = w.cont := by
    have := e6.cont
    rw [h9, Option.some.injEq] at this
    exact this
  subst hm hs ht
  refine ⟨idx, m, s, t, w, h1, h2, hpk, h5, h4, g1, e5, e6, ?_, ?_, rfl⟩
  · unfold fitAt at h6'
    simp only [Res.bind_eq_ok] at h6'
    obtain ⟨z, _, s0, _, t0, _, q, hq, r, hr, h6'⟩ := h6'
    obtain rfl := Res.ok.inj h6'
    obtain ⟨q2, hq2, hq3⟩ := hq
    obtain rfl := Res.ok.inj hq3
    exact write_tplCont k rfl hr
  · intro hr
    by_contra hne
    exact hd ⟨by simpa using hne, hr⟩

/-- What was saved for a candidate: the results of a fit of the model set to the solutions stored at its redshift. -/
def SavedFrom {σ : Type} (ops : Ops σ S C) (fit : Fit σ K (Option K) S C) (r r' : LmRes K (Option K) S C) (x : ZCand K × Option K × S × C) : Prop :=
  ∃ (idx : Nat) (s0 : S) (t0 : C) (st st' : σ) (w : FitOut (Option K) S C), r.redshifts[idx]? = some x.1.z ∧ r.lmSol[idx]? = some s0 ∧ r.contSol[idx]? = some t0 ∧
    fit (ops.setVel s0 (ops.setCont t0 st)) x.1.z s0 t0 = .ok (st', w) ∧ x.2 = (w.merit, w.sol, w.cont) ∧
    r'.chi2[idx]? = some x.2.1 ∧ r'.lmSol[idx]? = some x.2.2.1 ∧ r'.contSol[idx]? = some x.2.2.2

/-- **C108.** When the final candidates are saved: there is one result per candidate, in order; every candidate is in the grid and its parent,
if any, is a first pass candidate; results at other redshifts, and the merits by continuum template, are unchanged; unless the fitting
method is random, no merit changes, and none is NaN; and, for candidates at distinct redshifts, what is saved is what a fit gives when the
model has been set to the velocities and the continuum stored at that redshift, and is what the result holds at the end. -/
theorem C108_saved {σ : Type} (k : Flt (Option K) S C) (o : BOpts) (ops : Ops σ S C) (fit : Fit σ K (Option K) S C) (cands : List (ZCand K))
    (st st' : σ) (r r' : LmRes K (Option K) S C) (out : List (ZCand K × Option K × S × C))
    (h : saveAll o ops fit cands (st, r) = .ok ((st', r'), out)) :
    cands.length ≤ o.maxSave ∧ out.map Prod.fst = cands ∧ (∀ c ∈ cands, c.z ∈ r.redshifts ∧ ParentKnown o.ids c) ∧
    r'.tplCont = r.tplCont ∧ FrameSet k (fun i => ∀ c ∈ cands, r.redshifts[i]? ≠ some c.z) r r' ∧
    (o.method ≠ "random" → r'.chi2 = r.chi2 ∧ ∀ x ∈ out, ∃ v, x.2.1 = some v) ∧
    (cands.Pairwise (fun a b => a.z ≠ b.z) → ∀ x ∈ out, SavedFrom ops fit r r' x) := by
  unfold saveAll at h
  split at h
  · simp at h
  rename_i hlen
  have key := SvdFit.foldL_ok (f := saveCand o ops fit)
    (fun (pre : List (ZCand K)) (x : (σ × LmRes K (Option K) S C) × List (ZCand K × Option K × S × C)) =>
      x.2.map Prod.fst = pre ∧ (∀ c ∈ pre, c.z ∈ r.redshifts ∧ ParentKnown o.ids c) ∧ x.1.2.tplCont = r.tplCont ∧
      FrameSet k (fun i => ∀ c ∈ pre, r.redshifts[i]? ≠ some c.z) r x.1.2 ∧
      (o.method ≠ "random" → x.1.2.chi2 = r.chi2 ∧ ∀ y ∈ x.2, ∃ v, y.2.1 = some v) ∧
      (pre.Pairwise (fun a b => a.z ≠ b.z) → ∀ y ∈ x.2, SavedFrom ops fit r x.1.2 y)) cands [] ((st, r), []) ((st', r'), out)
    ⟨rfl, by simp, rfl, FrameSet.refl k _ r, fun _ => ⟨rfl, by simp⟩, fun _ => by simp⟩ (by
      rintro pre c x y hc ⟨p1, p2, p3, p4, p5, p6⟩ hy
      obtain ⟨idx, m, s, t, w, e1, e2, e3, e4, e5, e6, e7, e8, e9, e10, e11⟩ := saveCand_ok k hy
      have hzr : x.1.2.redshifts = r.redshifts := p4.2
      rw [hzr] at e1
      have hidx : r.redshifts[idx]? = some c.z := SecondPass.getIndex_ok e1
      have hmem : c.z ∈ r.redshifts := List.mem_of_getElem? hidx
      -- the frame with one more candidate
      have hmono : FrameSet k (fun i => ∀ c' ∈ pre ++ [c], r.redshifts[i]? ≠ some c'.z) r x.1.2 := by
        obtain ⟨⟨c1, c2, c3, c4, c5, c6, c7, c8, c9, c10, c11, c12, c13, c14⟩, hz⟩ := p4
        have aux : ∀ {β : Type} {d : β} {a b : List β}, FrameOff (fun i => ∀ c ∈ pre, r.redshifts[i]? ≠ some c.z) d a b →
            FrameOff (fun i => ∀ c' ∈ pre ++ [c], r.redshifts[i]? ≠ some c'.z) d a b := fun h =>
          ⟨h.1, fun i hi => h.2 i fun c' hc' => hi c' (List.mem_append_left _ hc')⟩
        exact ⟨⟨aux c1, aux c2, aux c3, aux c4, aux c5, aux c6, c7.imp fun _ _ => aux, c8.imp fun _ _ => aux, c9.imp fun _ _ => aux,
          c10.imp fun _ _ => aux, c11.imp fun _ _ => aux, c12.imp fun _ _ => aux, c13.imp fun _ _ => aux, c14⟩, hz⟩
      refine ⟨?_, ?_, e9.trans p3, hmono.step e7 ?_, ?_, ?_⟩
      · rw [e11, List.map_append, p1]; rfl
      · intro c' hc'
        rcases List.mem_append.1 hc' with h' | h'
        · exact p2 c' h'
        · rw [List.mem_singleton.1 h']; exact ⟨hmem, e3⟩
      · intro hall
        exact hall c (by simp) hidx
      · intro hr
        obtain ⟨q1, q2⟩ := p5 hr
        obtain ⟨v, v1, v2⟩ := differ_false (e10 hr)
        refine ⟨?_, ?_⟩
        · rw [← q1]
          apply List.ext_getElem?
          intro i
          by_cases hi : i = idx
          · rw [hi, e8.chi2, e2, v1, v2]
          · exact e7.1.chi2.2 i hi
        · intro u hu
          rw [e11] at hu
          rcases List.mem_append.1 hu with h' | h'
          · exact q2 u h'
          · rw [List.mem_singleton.1 h']; exact ⟨v, v2⟩
      · intro hpw
        rw [List.pairwise_append] at hpw
        obtain ⟨w1, _, w2⟩ := hpw
        intro u hu
        rw [e11] at hu
        rcases List.mem_append.1 hu with h' | h'
        · obtain ⟨i', s0, t0, st0, st1, w0, a1, a2, a3, a4, a5, a6, a7, a8⟩ := p6 w1 u h'
          have hne : i' ≠ idx := by
            rintro rfl
            rw [hidx, Option.some.injEq] at a1
            have hup : u.1 ∈ pre := by rw [← p1]; exact List.mem_map_of_mem h'
            exact w2 u.1 hup c (by simp) a1.symm
          refine ⟨i', s0, t0, st0, st1, w0, a1, a2, a3, a4, a5, ?_, ?_, ?_⟩
          · rw [e7.1.chi2.2 i' hne]; exact a6
          · rw [e7.1.lmSol.2 i' hne]; exact a7
          · rw [e7.1.contSol.2 i' hne]; exact a8
        · rw [List.mem_singleton.1 h']
          have hoff : ∀ c' ∈ pre, r.redshifts[idx]? ≠ some c'.z := by
            intro c' hc' heq
            rw [hidx, Option.some.injEq] at heq
            exact w2 c' hc' c (by simp) heq.symm
          refine ⟨idx, s, t, x.1.1, y.1.1, w, hidx, ?_, ?_, e6, rfl, e8.chi2, e8.sol, e8.cont⟩
          · rw [← p4.1.lmSol.2 idx hoff]; exact e4
          · rw [← p4.1.contSol.2 idx hoff]; exact e5) h
  simp only [List.nil_append] at key
  obtain ⟨p1, p2, p3, p4, p5, p6⟩ := key
  exact ⟨by omega, p1, p2, p3, p4, p5, p6⟩

/-- More candidates than models that can be saved is an error. -/
theorem C108_too_many {σ : Type} (o : BOpts) (ops : Ops σ S C) (fit : Fit σ K (Option K) S C) (cands : List (ZCand K))
    (x : σ × LmRes K (Option K) S C) (h : o.maxSave < cands.length) : saveAll o ops fit cands x = .throw .INTERNAL_ERROR := by
  unfold saveAll
  rw [if_pos h]

theorem foldL_total_throw {α τ : Type} {f : α → τ → Res τ} (P : τ → Prop) (e : Err) : ∀ (l : List α) (s : τ), P s →
    (∀ a s, a ∈ l → P s → (∃ s', f a s = .ok s' ∧ P s') ∨ f a s = .throw e) →
    (∃ s', EltList.foldL f l s = .ok s' ∧ P s') ∨ EltList.foldL f l s = .throw e := by
  intro l
  induction l with
  | nil => intro s h _; exact .inl ⟨s, rfl, h⟩
  | cons a l ih =>
    intro s h hs
    rw [EltList.foldL]
    rcases hs a s (List.mem_cons_self ..) h with ⟨s', h1, h2⟩ | h1
    · rw [h1, Res.bind_ok]
      exact ih s' h2 fun b t hb ht => hs b t (List.mem_cons_of_mem _ hb) ht
    · rw [h1, Res.bind_throw]; exact .inr rfl

/-- **C108, failures.** When every fit succeeds, saving succeeds or reports an internal error; in particular a candidate which is not in the
grid, or whose parent is unknown, is reported, and so is (with a method that is not random) a candidate whose fits never give back its stored
merit. -/
theorem C108_errors {σ : Type} (k : Flt (Option K) S C) (o : BOpts) (ops : Ops σ S C) (fit : Fit σ K (Option K) S C) (cands : List (ZCand K))
    (st : σ) (r : LmRes K (Option K) S C) (n nt nr : Nat) (hr : Shape n nt nr r)
    (hf : ∀ s z a b, ∃ s' w, fit s z a b = .ok (s', w) ∧ OutFits nt nr w) :
    ((∃ y, saveAll o ops fit cands (st, r) = .ok y) ∨ saveAll o ops fit cands (st, r) = .throw .INTERNAL_ERROR) ∧
    ((∃ c ∈ cands, c.z ∉ r.redshifts ∨ ¬ ParentKnown o.ids c) → saveAll o ops fit cands (st, r) = .throw .INTERNAL_ERROR) ∧
    (o.method ≠ "random" → cands.Pairwise (fun a b => a.z ≠ b.z) →
      (∃ c ∈ cands, ∀ (idx : Nat) (s s' : σ) (a : S) (b : C) (w : FitOut (Option K) S C), r.redshifts[idx]? = some c.z →
        fit s c.z a b = .ok (s', w) → r.chi2[idx]? ≠ some w.merit) → saveAll o ops fit cands (st, r) = .throw .INTERNAL_ERROR) := by
  have h1 : (∃ y, saveAll o ops fit cands (st, r) = .ok y) ∨ saveAll o ops fit cands (st, r) = .throw .INTERNAL_ERROR := by
    unfold saveAll
    split
    · exact .inr rfl
    rcases foldL_total_throw (f := saveCand o ops fit) (fun x => Shape n nt nr x.1.2) .INTERNAL_ERROR cands ((st, r), []) hr (by
      intro c x hc hx
      unfold saveCand
      by_cases hm : c.z ∈ x.1.2.redshifts
      · obtain ⟨idx, hi⟩ := getIndex_mem x.1.2.redshifts _ hm
        have hidx : idx < n := by rw [← hx.zs]; exact (List.getElem?_eq_some_iff.1 (SecondPass.getIndex_ok hi)).1
        have a1 : idx < x.1.2.chi2.length := by rw [hx.al.chi2]; exact hidx
        have a2 : idx < x.1.2.contSol.length := by rw [hx.al.contSol]; exact hidx
        have a3 : idx < x.1.2.lmSol.length := by rw [hx.al.lmSol]; exact hidx
        rw [hi, Res.bind_ok, Res.at_of_lt a1, Res.bind_ok]
        rcases checkParent_ok o.ids c with ⟨hp, _⟩ | ⟨hp, _⟩
        · rw [hp, Res.bind_ok, Res.at_of_lt a2, Res.bind_ok, Res.at_of_lt a3, Res.bind_ok]
          obtain ⟨y, hy1, hy2⟩ := fitAt_total k (fit := fun st z s t => fit st z s t >>= fun w => (.ok (w.1, { w.2 with tplCol := none }) :
              Res (σ × FitOut (Option K) S C))) (st := (ops.setVel x.1.2.lmSol[idx] (ops.setCont x.1.2.contSol[idx] x.1.1), x.1.2)) hx hidx (by
            intro s z a b
            obtain ⟨s', w, w1, w2⟩ := hf s z a b
            exact ⟨s', { w with tplCol := none }, by rw [w1, Res.bind_ok], ⟨by simp, w2.rat⟩⟩)
          rw [hy1, Res.bind_ok]
          have b1 : idx < y.2.chi2.length := by rw [hy2.al.chi2]; exact hidx
          have b2 : idx < y.2.contSol.length := by rw [hy2.al.contSol]; exact hidx
          have b3 : idx < y.2.lmSol.length := by rw [hy2.al.lmSol]; exact hidx
          rw [Res.at_of_lt b1, Res.bind_ok]
          split
          · exact .inr rfl
          · rw [Res.at_of_lt b3, Res.bind_ok, Res.at_of_lt b2, Res.bind_ok]
            exact .inl ⟨_, rfl, hy2⟩
        · rw [hp, Res.bind_throw]; exact .inr rfl
      · rw [((C08_getIndex x.1.2.redshifts c.z).2.1).2 hm, Res.bind_throw]; exact .inr rfl) with ⟨y, hy, _⟩ | hy
    · exact .inl ⟨y, hy⟩
    · exact .inr hy
  refine ⟨h1, ?_, ?_⟩
  · rintro ⟨c, hc, hbad⟩
    rcases h1 with ⟨⟨⟨st', r'⟩, out⟩, hy⟩ | hy
    · have := (C108_saved k o ops fit cands st st' r r' out hy).2.2.1 c hc
      rcases hbad with hb | hb
      · exact absurd this.1 hb
      · exact absurd this.2 hb
    · exact hy
  · rintro hm hpw ⟨c, hc, hbad⟩
    rcases h1 with ⟨⟨⟨st', r'⟩, out⟩, hy⟩ | hy
    · exfalso
      obtain ⟨_, g1, _, _, _, g2, g3⟩ := C108_saved k o ops fit cands st st' r r' out hy
      rw [← g1] at hc
      obtain ⟨x, hx, rfl⟩ := List.mem_map.1 hc
      obtain ⟨idx, s0, t0, s1, s2, w, a1, a2, a3, a4, a5, a6, _⟩ := g3 hpw x hx
      apply hbad idx _ _ _ _ w a1 a4
      rw [← (g2 hm).1, a6, a5]
    · exact hy

/-! ### Example -/

/-- The model state is the pair of the velocity and the continuum that were set; the merit is their sum. -/
def exOps : Ops (ℚ × ℚ) ℚ ℚ := ⟨fun c st => (st.1, c), fun s st => (s, st.2)⟩

def exFit : Fit (ℚ × ℚ) ℚ (Option ℚ) ℚ ℚ := fun st z s c => .ok (st, ⟨some (st.1 + st.2 + z), none, s, c + 1, none, none, none, none⟩)

def exSv : LmRes ℚ (Option ℚ) ℚ ℚ :=
  ⟨[0, 1, 2], [some 7, some 8, some 9], [none, none, none], [3, 3, 3], [4, 4, 4], [none, none, none], [none, none, none], [], [], [], [], [], [], [], []⟩

/-- The stored merit 9 at redshift 2 is found again (3 + 4 + 2) and the continuum is replaced. -/
example : (saveAll ⟨2, "hybrid", ["FPE0", "FPE1"]⟩ exOps exFit [⟨"SPE0", 2, "FPE1"⟩, ⟨"SPE1", 0, "FPE0"⟩] ((0, 0), exSv) >>= fun y =>
    (.ok (y.1.2.contSol, y.2.map fun x => x.2.1) : Res (List ℚ × List (Option ℚ)))) = .ok ([5, 4, 5], [some 9, some 7]) := by
  decide +kernel

/-- The same candidate twice: the second fit starts from the replaced continuum, and its merit differs. -/
example : (saveAll ⟨2, "hybrid", []⟩ exOps exFit [⟨"SPE0", 2, ""⟩, ⟨"SPE1", 2, ""⟩] ((0, 0), exSv) >>= fun y =>
    (.ok y.1.2.contSol : Res (List ℚ))) = .throw .INTERNAL_ERROR := by
  decide +kernel

example : Shape 3 0 0 exSv := by
  refine ⟨?_, rfl, rfl, rfl⟩
  constructor <;> simp [exSv]

end LmCands
end Amazed
