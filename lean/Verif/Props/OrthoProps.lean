import Verif.Model.Ortho
import Verif.Props.FitAmpProps

set_option linter.unusedVariables false
set_option linter.unusedSectionVars false
set_option linter.unusedSimpArgs false

/-! # C196: an orthogonalised template is orthogonal to the emission lines -/

namespace Amazed
namespace Ortho

open FitAmp EltSup Classical

variable {K : Type} [Field K] [LinearOrder K] [IsStrictOrderedRing K]

/-! ## Specification -/

/-- Scalar product of two fluxes with the weights of the errors. -/
def dot (err a b : List K) : K := ∑ p ∈ Finset.range err.length, a.getD p 0 * b.getD p 0 / (err.getD p 0) ^ 2

/-- The flux of the lines of an element, each with its nominal amplitude, on a null continuum. -/
def profileOf (axis flux err : List K) (e : El K) : List K := modelOf (obs axis flux err e) e.par.isEmission (nomOf e.par) none 1

/-- An element prepared on the template: see `FitAmp.Valid`, `FitAmp.Apart`; the lines out of range are the same for the element and its parameters. -/
structure Ready (axis flux err : List K) (e : El K) : Prop where
  valid : Valid (obs axis flux err e) e.par.lines.length
  apart : Apart e.elt
  wf : Amp.WF e.par
  nom : ∀ x ∈ e.par.nominal, 0 ≤ x
  out : ∀ k, k < e.par.lines.length → e.par.gOutsideLine[k]? = some (e.elt.theo k).out
  outAll : e.par.gOutside = e.elt.outside

/-- Sample `p` is under a line of the element. -/
def Under (e : El K) (p : Nat) : Prop := ∃ r, e.elt.In r ∧ Covers e.elt.sup.s e.elt.sup.e r p

/-! ## One element -/

theorem zero_cont (axis : List K) (p : Nat) : (List.replicate axis.length (0 : K)).getD p 0 = 0 := by
  rw [List.getD_eq_getElem?_getD, List.getElem?_replicate]
  split <;> rfl

theorem unit_abs (axis flux err : List K) (e : El K) (he : e.par.isEmission = false) (nom : Nat → K) (p : Nat) :
    unit (obs axis flux err e) e.par.isEmission nom none p = 0 := by
  unfold unit
  refine Finset.sum_eq_zero fun r _ => ?_
  split
  · unfold synP
    rw [synth_eq, he]
    refine Finset.sum_eq_zero fun k _ => ?_
    split
    · show (if false = true then _ else (-1) * (List.replicate axis.length (0 : K)).getD p 0 * nom k * _) = (0 : K)
      rw [zero_cont, if_neg (by decide)]
      ring
    · rfl
  · rfl

theorem modelAt_par (e : Elt) (ho : e.outside = false) (em : Bool) (par : Amp.Elt K) (prof : Nat → K → K) (nom : Nat → K) (A : K) (hA : 0 ≤ A) (hn : ∀ k, k < e.n → 0 ≤ nom k)
    (x c : K) (hc : em = false → c = 0)
    (hfa : em = true → ∀ k, k < e.n → e.out k = false → par.fa[k]? = some (some (A * nom k))) (r : Nat) :
    modelAt e em (fun k => ⟨(par.fa[k]?).getD none, prof k⟩) x c r = A * synth e em nom prof x c r := by
  rw [modelAt_eq e em _ x c r ho, synth_eq, Finset.mul_sum]
  refine Finset.sum_congr rfl fun k hk => ?_
  have hk := Finset.mem_range.1 hk
  split
  · rename_i hs
    cases em with
    | true =>
      rw [hfa rfl k hk hs.1]
      unfold contrib
      simp only [Option.getD_some]
      rw [if_neg (not_lt.2 (mul_nonneg hA (hn k hk)))]
      simp only [if_true]
      ring
    | false =>
      rw [hc rfl]
      unfold contrib
      cases (par.fa[k]?).getD none with
      | none => simp
      | some a => simp
  · rw [mul_zero]

/-- The model of a fitted element, added to any flux. -/
theorem add_par (axis flux err : List K) (e : El K) (hr : Ready axis flux err e) (par : Amp.Elt K) (hem : par.isEmission = e.par.isEmission) (A : K) (hA : 0 ≤ A)
    (hfa : e.par.isEmission = true → e.elt.outside = false → ∀ k, k < e.elt.n → e.elt.out k = false → par.fa[k]? = some (some (A * nomOf e.par k))) (f : List K) (hf : f.length = axis.length) :
    ∃ M, addToModel e.elt par.isEmission (fun k => ⟨(par.fa[k]?).getD none, e.prof k⟩) none axis (List.replicate axis.length 0) f = .ok M ∧ M.length = axis.length ∧
      ∀ p, p < axis.length → M.getD p 0 = f.getD p 0 + A * unit (obs axis flux err e) e.par.isEmission (nomOf e.par) none p := by
  have hn' : ∀ k, k < e.elt.n → 0 ≤ nomOf e.par k := by
    intro k hk
    have hk' : k < e.par.lines.length := by rw [← hr.valid.lines]; exact hk
    unfold nomOf
    rw [List.getElem?_eq_getElem (by rw [hr.wf.nominal]; exact hk')]
    exact hr.nom _ (List.getElem_mem _)
  rw [hem]
  by_cases ho : e.elt.outside = true
  · refine ⟨f, ?_, hf, ?_⟩
    · unfold addToModel; rw [if_pos ho]
    · intro p hp
      unfold unit
      rw [unit_zero (obs axis flux err e) none p (by rintro ⟨r, h, _⟩; exact outside_none ho r h), mul_zero, add_zero]
  · have ho' : e.elt.outside = false := by simpa using ho
    obtain ⟨M, h1, h2, h3⟩ := addToModel_raw axis e.elt ho' hr.valid.bounds e.par.isEmission (fun k => ⟨(par.fa[k]?).getD none, e.prof k⟩) none (List.replicate axis.length 0) f (by simp) hf
    refine ⟨M, h1, by rw [h2, hf], ?_⟩
    intro p hp
    have hpf : p < f.length := by rw [hf]; exact hp
    rw [List.getD_eq_getElem?_getD, h3, List.getElem?_eq_getElem hpf, getD_lt (hn := hpf)]
    simp only [Option.map_some, Option.getD_some]
    congr 1
    unfold unit
    rw [Finset.mul_sum]
    refine Finset.sum_congr rfl fun r _ => ?_
    unfold Cnt
    split
    · rename_i hcc
      rw [if_pos (show (obs axis flux err e).elt.out r = false ∧ Sel (obs axis flux err e).elt none r ∧ Covers (obs axis flux err e).elt.sup.s (obs axis flux err e).elt.sup.e r p from hcc)]
      have hpc : p < (List.replicate axis.length (0 : K)).length := by simpa using hp
      unfold supModel synP
      rw [List.getElem?_eq_getElem hp, List.getElem?_eq_getElem hpc]
      simp only
      rw [List.getElem_replicate, modelAt_par e.elt ho' e.par.isEmission par e.prof (nomOf e.par) A hA hn' _ 0 (fun _ => rfl) (fun h k hk hs => hfa h ho' k hk hs) r]
      show _ = A * synth e.elt e.par.isEmission (nomOf e.par) e.prof (axis.getD p 0) ((List.replicate axis.length (0 : K)).getD p 0) r
      rw [zero_cont, getD_lt (hn := hp)]
    · rename_i hcc
      rw [if_neg (show ¬ ((obs axis flux err e).elt.out r = false ∧ Sel (obs axis flux err e).elt none r ∧ Covers (obs axis flux err e).elt.sup.s (obs axis flux err e).elt.sup.e r p) from hcc), mul_zero]

/-- The fit of one element, and what it adds to any flux. -/
theorem fitOne_spec (sq : K → K) (axis flux err : List K) (e : El K) (hr : Ready axis flux err e) :
    ∃ e' A, fitOne sq axis flux err e = .ok e' ∧ 0 ≤ A ∧
      A * mtmO (obs axis flux err e) e.par.isEmission (nomOf e.par) none = max 0 (dtmO (obs axis flux err e) e.par.isEmission (nomOf e.par) none) ∧
      ∀ f : List K, f.length = axis.length → ∃ M, addToModel e'.elt e'.par.isEmission (fun k => ⟨(e'.par.fa[k]?).getD none, e'.prof k⟩) none axis (List.replicate axis.length 0) f = .ok M ∧
        M.length = axis.length ∧ ∀ p, p < axis.length → M.getD p 0 = f.getD p 0 + A * unit (obs axis flux err e) e.par.isEmission (nomOf e.par) none p := by
  let o := obs axis flux err e
  have hzero : mtmO o e.par.isEmission (nomOf e.par) none = 0 → ∀ p, p < axis.length → unit o e.par.isEmission (nomOf e.par) none p = 0 := fun h p hp =>
    mtmO_zero o hr.valid e.par.isEmission (nomOf e.par) none h p hp
  have hdtm : mtmO o e.par.isEmission (nomOf e.par) none = 0 → dtmO o e.par.isEmission (nomOf e.par) none = 0 := by
    intro h
    unfold dtmO
    refine Finset.sum_eq_zero fun p hp => ?_
    rw [hzero h p (Finset.mem_range.1 hp)]
    ring
  -- the case of an element that adds nothing
  have hnull : ∀ par : Amp.Elt K, par.isEmission = e.par.isEmission → (e.elt.outside = false → ∀ x ∈ par.fa, x = none) → mtmO o e.par.isEmission (nomOf e.par) none = 0 →
      fitOne sq axis flux err e = .ok { e with par := par } →
      ∃ e' A, fitOne sq axis flux err e = .ok e' ∧ 0 ≤ A ∧
      A * mtmO (obs axis flux err e) e.par.isEmission (nomOf e.par) none = max 0 (dtmO (obs axis flux err e) e.par.isEmission (nomOf e.par) none) ∧
      ∀ f : List K, f.length = axis.length → ∃ M, addToModel e'.elt e'.par.isEmission (fun k => ⟨(e'.par.fa[k]?).getD none, e'.prof k⟩) none axis (List.replicate axis.length 0) f = .ok M ∧
        M.length = axis.length ∧ ∀ p, p < axis.length → M.getD p 0 = f.getD p 0 + A * unit (obs axis flux err e) e.par.isEmission (nomOf e.par) none p := by
    intro par hem hfa hm hfit
    refine ⟨{ e with par := par }, 0, hfit, le_refl _, ?_, ?_⟩
    · show 0 * mtmO o _ _ _ = max 0 (dtmO o _ _ _)
      rw [hdtm hm, zero_mul, max_self]
    · intro f hf
      show ∃ M, addToModel e.elt par.isEmission (fun k => ⟨(par.fa[k]?).getD none, e.prof k⟩) none axis (List.replicate axis.length 0) f = .ok M ∧ _
      by_cases ho : e.elt.outside = true
      · refine ⟨f, by unfold addToModel; rw [if_pos ho], hf, fun p hp => by rw [zero_mul, add_zero]⟩
      · have ho' : e.elt.outside = false := by simpa using ho
        obtain ⟨M, h1, h2, h3⟩ := addToModel_raw axis e.elt ho' hr.valid.bounds par.isEmission (fun k => ⟨(par.fa[k]?).getD none, e.prof k⟩) none (List.replicate axis.length 0) f (by simp) hf
        refine ⟨M, h1, by rw [h2, hf], fun p hp => ?_⟩
        have hpf : p < f.length := by rw [hf]; exact hp
        rw [List.getD_eq_getElem?_getD, h3, List.getElem?_eq_getElem hpf, getD_lt (hn := hpf)]
        simp only [Option.map_some, Option.getD_some]
        rw [zero_mul]
        congr 1
        refine Finset.sum_eq_zero fun r _ => ?_
        split
        · unfold supModel
          rw [List.getElem?_eq_getElem hp, List.getElem?_eq_getElem (by simpa using hp)]
          simp only
          rw [modelAt_eq _ _ _ _ _ _ ho']
          refine Finset.sum_eq_zero fun k _ => ?_
          split
          · unfold contrib
            have : (par.fa[k]?).getD none = none := by
              cases hk : par.fa[k]? with
              | none => rfl
              | some x => rw [Option.getD_some, hfa ho' x (List.mem_of_getElem? hk)]
            simp only [this]
          · rfl
        · rfl
  obtain ⟨a, h1, h2, h3, h4⟩ := crossAll_unit e.par.isEmission (nomOf e.par) none [o] ⟨0, 0, 0⟩ (by
    intro o' ho'; rw [List.mem_singleton] at ho'; subst ho'; exact ⟨hr.valid, hr.apart⟩) (fun _ => rfl)
  simp only [zero_add, List.map_cons, List.map_nil, List.sum_cons, List.sum_nil, add_zero] at h3 h4
  by_cases ho : e.elt.outside = true
  · have hm : mtmO o e.par.isEmission (nomOf e.par) none = 0 := by
      unfold mtmO
      refine Finset.sum_eq_zero fun p _ => ?_
      have : unit o e.par.isEmission (nomOf e.par) none p = 0 := by
        unfold unit
        exact unit_zero o none p (by rintro ⟨r, h, _⟩; exact outside_none ho r h) _
      rw [this]; ring
    refine hnull e.par rfl (fun h => by rw [ho] at h; exact nomatch h) hm ?_
    unfold fitOne fitAmplitude
    rw [if_pos (by simp [obs, ho])]
    rfl
  · have ho' : e.elt.outside = false := by simpa using ho
    have hfit : fitOne sq axis flux err e = ((crossAll e.par.isEmission (nomOf e.par) none [o] ⟨0, 0, 0⟩ >>= fun a =>
        if a.num = 0 ∨ a.mtm = 0 then .ok ({ e.par with fa := List.replicate e.par.lines.length none, fastd := List.replicate e.par.lines.length none }, (⟨none, none, none⟩ : Sums K))
        else Amp.setAmplitude { e.par with fa := List.replicate e.par.lines.length none, fastd := List.replicate e.par.lines.length none } (some (max 0 a.dtm / a.mtm)) (some (1 / sq a.mtm)) >>= fun pe2 =>
          .ok (pe2, ⟨some (max 0 a.dtm), some a.mtm, some a.dtm⟩)) >>= fun r => .ok { e with par := r.1 }) := by
      unfold fitOne fitAmplitude
      rw [if_neg (by simp [obs, ho'])]
      rfl
    rw [h1, Res.bind_ok] at hfit
    by_cases hc : a.num = 0 ∨ a.mtm = 0
    · have hm : a.mtm = 0 := hc.elim h2 id
      rw [if_pos hc, Res.bind_ok] at hfit
      exact hnull { e.par with fa := List.replicate e.par.lines.length none, fastd := List.replicate e.par.lines.length none } rfl (fun _ x hx => (List.mem_replicate.1 hx).2) (by rw [← h4]; exact hm) hfit
    · rw [if_neg hc] at hfit
      have hm0 : a.mtm ≠ 0 := fun h => hc (Or.inr h)
      have hmp : 0 < a.mtm := lt_of_le_of_ne (by rw [h4]; exact mtmO_nonneg o _ _ _) (Ne.symm hm0)
      have hA : 0 ≤ max 0 a.dtm / a.mtm := div_nonneg (le_max_left _ _) (le_of_lt hmp)
      have hg : e.par.gOutside = false := by rw [hr.outAll]; exact ho'
      have hset : Amp.setAmplitude { e.par with fa := List.replicate e.par.lines.length none, fastd := List.replicate e.par.lines.length none }
          (some (max 0 a.dtm / a.mtm)) (some (1 / sq a.mtm)) = Amp.setAmplitude e.par (some (max 0 a.dtm / a.mtm)) (some (1 / sq a.mtm)) := rfl
      obtain ⟨pe', q1, ⟨fa, fs, q2⟩, q3, q4⟩ := Amp.C67_set e.par (max 0 a.dtm / a.mtm) (some (1 / sq a.mtm)) hr.wf hg
      rw [hset, q1, Res.bind_ok, Res.bind_ok] at hfit
      refine ⟨_, max 0 a.dtm / a.mtm, hfit, hA, ?_, ?_⟩
      · show _ * mtmO o _ _ _ = max 0 (dtmO o _ _ _)
        rw [← h3, ← h4]
        exact div_mul_cancel₀ _ hm0
      · intro f hf
        refine add_par axis flux err e hr pe' (by rw [q2]) _ hA ?_ f hf
        intro hem _ k hk hs
        have hk' : k < e.par.lines.length := by rw [← hr.valid.lines]; exact hk
        have hn : e.par.nominal[k]? = some (nomOf e.par k) := by
          unfold nomOf
          rw [List.getElem?_eq_getElem (by rw [hr.wf.nominal]; exact hk')]
          rfl
        have := ((q4 k _ hn).2 (by rw [hr.out k hk']; exact congrArg some hs)).1
        rw [this]
        unfold Amp.lineAmp
        rw [if_neg (by rw [hem]; rintro ⟨h, _⟩; exact nomatch h)]

/-! ## All the elements -/

/-- The unit models of the elements weighted by amplitudes. -/
noncomputable def total (axis flux err : List K) : List (El K × K) → Nat → K
  | [], _ => 0
  | x :: l, p => x.2 * unit (obs axis flux err x.1) x.1.par.isEmission (nomOf x.1.par) none p + total axis flux err l p

theorem fitAll_spec (sq : K → K) (axis flux err : List K) : ∀ (es : List (El K)), (∀ e ∈ es, Ready axis flux err e) →
    ∃ es' As, fitAll sq axis flux err es = .ok es' ∧ As.length = es.length ∧
      (∀ x ∈ es.zip As, 0 ≤ x.2 ∧ x.2 * mtmO (obs axis flux err x.1) x.1.par.isEmission (nomOf x.1.par) none = max 0 (dtmO (obs axis flux err x.1) x.1.par.isEmission (nomOf x.1.par) none)) ∧
      ∀ f : List K, f.length = axis.length → ∃ M, EltList.foldL (fun (e : El K) flux => EltSup.addToModel e.elt e.par.isEmission (fun k => ⟨(e.par.fa[k]?).getD none, e.prof k⟩) none axis (List.replicate axis.length 0) flux) es' f = .ok M ∧
        M.length = axis.length ∧ ∀ p, p < axis.length → M.getD p 0 = f.getD p 0 + total axis flux err (es.zip As) p
  | [], _ => ⟨[], [], rfl, rfl, by simp, fun f hf => ⟨f, rfl, hf, fun p _ => by simp [total]⟩⟩
  | e :: es, h => by
    obtain ⟨e', A, g1, g2, g3, g4⟩ := fitOne_spec sq axis flux err e (h e (List.mem_cons_self ..))
    obtain ⟨es', As, k1, k2, k3, k4⟩ := fitAll_spec sq axis flux err es (fun e he => h e (List.mem_cons_of_mem _ he))
    refine ⟨e' :: es', A :: As, ?_, by simp [k2], ?_, ?_⟩
    · have e1 : fitAll sq axis flux err (e :: es) = (fitOne sq axis flux err e >>= fun e' => fitAll sq axis flux err es >>= fun es' => .ok (e' :: es')) := rfl
      rw [e1, g1, Res.bind_ok, k1, Res.bind_ok]
    · intro x hx
      rw [List.zip_cons_cons, List.mem_cons] at hx
      rcases hx with rfl | hx
      · exact ⟨g2, g3⟩
      · exact k3 x hx
    · intro f hf
      obtain ⟨M, m1, m2, m3⟩ := g4 f hf
      obtain ⟨M', n1, n2, n3⟩ := k4 M m2
      refine ⟨M', Res.bind_eq_ok.2 ⟨M, m1, n1⟩, n2, fun p hp => ?_⟩
      rw [n3 p hp, m3 p hp, List.zip_cons_cons, total, add_assoc]

theorem unit_under (axis flux err : List K) (e : El K) (p : Nat) (h : ¬ Under e p) : unit (obs axis flux err e) e.par.isEmission (nomOf e.par) none p = 0 := by
  unfold unit
  exact unit_zero (obs axis flux err e) none p (by rintro ⟨r, h1, _, h3⟩; exact h ⟨r, h1, h3⟩) _

theorem total_zero (axis flux err : List K) (p : Nat) : ∀ (l : List (El K × K)), (∀ x ∈ l, x.1.par.isEmission = true → ¬ Under x.1 p) → total axis flux err l p = 0
  | [], _ => rfl
  | x :: l, h => by
    have e1 : total axis flux err (x :: l) p = x.2 * unit (obs axis flux err x.1) x.1.par.isEmission (nomOf x.1.par) none p + total axis flux err l p := rfl
    rw [e1, total_zero axis flux err p l fun y hy => h y (List.mem_cons_of_mem _ hy), add_zero]
    have : unit (obs axis flux err x.1) x.1.par.isEmission (nomOf x.1.par) none p = 0 := by
      cases he : x.1.par.isEmission with
      | true =>
        have := unit_under axis flux err x.1 p (h x (List.mem_cons_self ..) he)
        rw [he] at this
        exact this
      | false =>
        have := unit_abs axis flux err x.1 he (nomOf x.1.par) p
        rw [he] at this
        exact this
    rw [this, mul_zero]

theorem total_one (axis flux err : List K) (p : Nat) : ∀ (l : List (El K × K)), l.Pairwise (fun x y => ∀ q, ¬ (Under x.1 q ∧ Under y.1 q)) → ∀ x ∈ l, Under x.1 p →
    total axis flux err l p = x.2 * unit (obs axis flux err x.1) x.1.par.isEmission (nomOf x.1.par) none p
  | [], _, x, hx, _ => nomatch hx
  | y :: l, hl, x, hx, hu => by
    obtain ⟨h1, h2⟩ := List.pairwise_cons.1 hl
    have e1 : total axis flux err (y :: l) p = y.2 * unit (obs axis flux err y.1) y.1.par.isEmission (nomOf y.1.par) none p + total axis flux err l p := rfl
    rw [e1]
    rcases List.mem_cons.1 hx with rfl | hx
    · rw [total_zero axis flux err p l fun z hz _ hzu => h1 z hz p ⟨hu, hzu⟩, add_zero]
    · rw [total_one axis flux err p l h2 x hx hu, unit_under axis flux err y.1 p fun hy => h1 x hx p ⟨hy, hu⟩, mul_zero, zero_add]

theorem profileOf_spec (axis flux err : List K) (e : El K) (hr : Ready axis flux err e) : ∀ p, p < axis.length →
    (profileOf axis flux err e).getD p 0 = unit (obs axis flux err e) e.par.isEmission (nomOf e.par) none p := by
  intro p hp
  have hn' : ∀ k, k < e.par.lines.length → 0 ≤ nomOf e.par k := by
    intro k hk
    unfold nomOf
    rw [List.getElem?_eq_getElem (by rw [hr.wf.nominal]; exact hk)]
    exact hr.nom _ (List.getElem_mem _)
  obtain ⟨M, h1, h2, h3⟩ := modelOf_spec (obs axis flux err e) hr.valid e.par.isEmission (nomOf e.par) hn' none 1 zero_le_one
  have e1 : profileOf axis flux err e = M := by unfold profileOf modelOf; rw [h1]
  rw [e1, h3 p hp, one_mul]

/-- **C196.** For a template and elements whose supports do not meet, orthogonalisation ends; the samples that are under no emission line are those of the template; and for every emission element the scalar product of the
result with the flux of its lines is zero, or keeps the value it had for the template when that was negative (a template with less than nothing under the lines is left as it is). -/
theorem C196_orthogonal_partial (sq : K → K) (axis flux err : List K) (hf : flux.length = axis.length) (he : err.length = axis.length) (es : List (El K)) (hr : ∀ e ∈ es, Ready axis flux err e)
    (hd : es.Pairwise fun a b => ∀ p, ¬ (Under a p ∧ Under b p)) :
    ∃ y, orthogonalize true sq axis flux err es = .ok y ∧ y.length = flux.length ∧
      (∀ p, (∀ e ∈ es, e.par.isEmission = true → ¬ Under e p) → y[p]? = flux[p]?) ∧
      (∀ e ∈ es, e.par.isEmission = true → dot err (profileOf axis flux err e) y = min 0 (dot err (profileOf axis flux err e) flux)) := by
  obtain ⟨es', As, h1, h2, h3, h4⟩ := fitAll_spec sq axis flux err es hr
  obtain ⟨M, m1, m2, m3⟩ := h4 (List.replicate axis.length 0) (by simp)
  have hy : ∀ p, p < axis.length → (List.zipWith (· - ·) flux M).getD p 0 = flux.getD p 0 - total axis flux err (es.zip As) p := by
    intro p hp
    have e1 : p < flux.length := by rw [hf]; exact hp
    have e2 : p < M.length := by rw [m2]; exact hp
    have e3 : p < (List.zipWith (· - ·) flux M).length := by rw [List.length_zipWith, hf, m2, min_self]; exact hp
    have := m3 p hp
    rw [zero_cont, zero_add] at this
    rw [getD_lt (hn := e3), List.getElem_zipWith, getD_lt (hn := e1), ← this, getD_lt (hn := e2)]
  refine ⟨List.zipWith (· - ·) flux M, ?_, by rw [List.length_zipWith, hf, m2, min_self], ?_, ?_⟩
  · unfold orthogonalize
    rw [if_neg (by decide), h1, Res.bind_ok]
    exact Res.bind_eq_ok.2 ⟨M, m1, rfl⟩
  · intro p hp
    by_cases hlt : p < axis.length
    · have e1 : p < flux.length := by rw [hf]; exact hlt
      have e3 : p < (List.zipWith (· - ·) flux M).length := by rw [List.length_zipWith, hf, m2, min_self]; exact hlt
      have := hy p hlt
      rw [total_zero axis flux err p _ (fun x hx => hp x.1 (List.of_mem_zip hx).1), sub_zero, getD_lt (hn := e3), getD_lt (hn := e1)] at this
      rw [List.getElem?_eq_getElem e3, List.getElem?_eq_getElem e1, this]
    · rw [List.getElem?_eq_none (by rw [List.length_zipWith, hf, m2, min_self]; omega), List.getElem?_eq_none (by rw [hf]; omega)]
  · intro e hmem hem
    obtain ⟨i, hi, hie⟩ := List.getElem_of_mem hmem
    have hiA : i < As.length := by rw [h2]; exact hi
    have hx : (e, As[i]) ∈ es.zip As := by
      refine List.mem_of_getElem? (i := i) ?_
      rw [List.getElem?_zip_eq_some]
      exact ⟨by rw [List.getElem?_eq_getElem hi, hie], List.getElem?_eq_getElem hiA⟩
    obtain ⟨hA, hAm⟩ := h3 _ hx
    simp only at hA hAm
    have hpw : (es.zip As).Pairwise (fun x y => ∀ q, ¬ (Under x.1 q ∧ Under y.1 q)) := by
      have : ((es.zip As).map Prod.fst).Pairwise fun a b => ∀ p, ¬ (Under a p ∧ Under b p) := by
        rw [List.map_fst_zip (by rw [h2])]
        exact hd
      exact List.pairwise_map.1 this
    let o := obs axis flux err e
    let u := unit o e.par.isEmission (nomOf e.par) none
    have hdot : dot err (profileOf axis flux err e) flux = dtmO o e.par.isEmission (nomOf e.par) none := by
      unfold dot dtmO
      rw [he]
      refine Finset.sum_congr rfl fun p hp => ?_
      rw [profileOf_spec axis flux err e (hr e hmem) p (Finset.mem_range.1 hp), div_eq_mul_one_div, pow_two]
      rfl
    have hdy : dot err (profileOf axis flux err e) (List.zipWith (· - ·) flux M) = dtmO o e.par.isEmission (nomOf e.par) none - As[i] * mtmO o e.par.isEmission (nomOf e.par) none := by
      unfold dot dtmO mtmO
      rw [he, Finset.mul_sum, ← Finset.sum_sub_distrib]
      refine Finset.sum_congr rfl fun p hp => ?_
      have hp := Finset.mem_range.1 hp
      rw [profileOf_spec axis flux err e (hr e hmem) p hp, hy p hp, div_eq_mul_one_div, pow_two]
      by_cases hu : Under e p
      · rw [total_one axis flux err p _ hpw _ hx hu]
        show u p * (flux.getD p 0 - As[i] * u p) * (1 / (err.getD p 0 * err.getD p 0)) = u p * flux.getD p 0 * (1 / (err.getD p 0 * err.getD p 0)) - As[i] * (u p * u p * (1 / (err.getD p 0 * err.getD p 0)))
        ring
      · have h0 : u p = 0 := unit_under axis flux err e p hu
        show u p * _ * _ = u p * flux.getD p 0 * (1 / (err.getD p 0 * err.getD p 0)) - As[i] * (u p * u p * (1 / (err.getD p 0 * err.getD p 0)))
        rw [h0]
        ring
    rw [hdy, hdot, hAm]
    rcases le_total 0 (dtmO o e.par.isEmission (nomOf e.par) none) with h | h
    · rw [max_eq_right h, min_eq_left h, sub_self]
    · rw [max_eq_left h, min_eq_right h, sub_zero]

/-- **C196, absorption.** The lines of an absorption element add nothing to a model whose continuum is null: whatever the template, its flux is not changed by the absorption elements, and nothing makes the result orthogonal
to them. -/
theorem C196_absorption (sq : K → K) (axis flux err : List K) (hf : flux.length = axis.length) (he : err.length = axis.length) (es : List (El K)) (hr : ∀ e ∈ es, Ready axis flux err e)
    (hd : es.Pairwise fun a b => ∀ p, ¬ (Under a p ∧ Under b p)) (ha : ∀ e ∈ es, e.par.isEmission = false) :
    orthogonalize true sq axis flux err es = .ok flux := by
  obtain ⟨y, h1, h2, h3, _⟩ := C196_orthogonal_partial sq axis flux err hf he es hr hd
  rw [h1]
  congr 1
  exact List.ext_getElem? fun p => h3 p fun e hm h => absurd h (by rw [ha e hm]; decide)

/-- Without orthogonalisation the template is returned unchanged. -/
theorem C196_disabled (sq : K → K) (axis flux err : List K) (es : List (El K)) : orthogonalize false sq axis flux err es = .ok flux := rfl

/-! ## Examples -/

/-- An element with one line over samples `a` to `a+2`, with a triangular profile; emission or absorption. -/
def exEl (a : Nat) (em : Bool) : El ℚ :=
  ⟨⟨1, fun _ => ⟨a, a + 2, false⟩, ⟨fun _ => a, fun _ => a + 2, fun i j => decide (i = j)⟩⟩, fun _ x => if x = a + 1 then 2 else 1,
    ⟨[⟨"a", .weak⟩], if em then .emission else .absorption, em, [1], [none], [none], 1, false, [false], false, [false]⟩⟩

def exAxis : List ℚ := [0, 1, 2, 3, 4, 5, 6]

def exErr : List ℚ := [1, 1, 1, 1, 1, 1, 1]

theorem exReady (flux : List ℚ) (h : flux.length = 7) (a : Nat) (ha : a + 2 < 7) (em : Bool) : Ready exAxis flux exErr (exEl a em) := by
  refine ⟨⟨rfl, rfl, h, rfl, by intro s hs; simp [obs, exErr] at hs; rw [hs]; norm_num, ?_⟩, ?_, ⟨rfl, rfl, rfl, rfl, rfl⟩, ?_, ?_, rfl⟩
  · intro k hk _
    simp [obs, exEl, exAxis]
    omega
  · intro i j p hi hj _ _
    have h1 := hi.1
    have h2 := hj.1
    simp [exEl] at h1 h2
    omega
  · intro x hx
    simp [exEl] at hx
    rw [hx]; norm_num
  · intro k hk
    simp [exEl] at hk
    subst hk
    rfl

theorem exDisjoint : [exEl 0 true, exEl 3 true].Pairwise fun a b => ∀ p, ¬ (Under a p ∧ Under b p) := by
  refine List.pairwise_pair.2 ?_
  rintro p ⟨⟨r, _, h1⟩, s, _, h2⟩
  simp [Covers, exEl] at h1 h2
  omega

/-- Example for C196: two emission lines, one with flux under it, one with a negative projection; the profile removed is 1, 2, 1 times (1 + 2·3 + 2) / 6. -/
example : orthogonalize true id exAxis [1, 3, 2, -1, 1, -3, 5] exErr [exEl 0 true, exEl 3 true] = .ok [1 - 3 / 2, 3 - 3, 2 - 3 / 2, -1, 1, -3, 5] := by
  decide +kernel

example : ∃ y, orthogonalize true id exAxis [1, 3, 2, -1, 1, -3, 5] exErr [exEl 0 true, exEl 3 true] = .ok y ∧
    dot exErr (profileOf exAxis [1, 3, 2, -1, 1, -3, 5] exErr (exEl 0 true)) y = 0 := by
  obtain ⟨y, h1, _, _, h4⟩ := C196_orthogonal_partial id exAxis [1, 3, 2, -1, 1, -3, 5] exErr rfl rfl [exEl 0 true, exEl 3 true]
    (by intro e he; simp only [List.mem_cons, List.not_mem_nil, or_false] at he; rcases he with rfl | rfl <;> exact exReady _ rfl _ (by omega) _) exDisjoint
  refine ⟨y, h1, ?_⟩
  rw [h4 _ (List.mem_cons_self ..) rfl]
  have : profileOf exAxis [1, 3, 2, -1, 1, -3, 5] exErr (exEl 0 true) = [1, 2, 1, 0, 0, 0, 0] := by decide +kernel
  rw [this]
  simp [dot, exErr, Finset.sum_range_succ]
  norm_num

/-- **C196 fails for negative projections**: the result is the template itself, and its scalar product with the flux of the line is -2. -/
theorem C196_negative_counterexample :
    orthogonalize true id exAxis [0, 0, 0, -1, 1, -3, 5] exErr [exEl 3 true] = .ok [0, 0, 0, -1, 1, -3, 5] ∧
    dot exErr (profileOf exAxis [0, 0, 0, -1, 1, -3, 5] exErr (exEl 3 true)) [0, 0, 0, -1, 1, -3, 5] = -2 := by
  refine ⟨by decide +kernel, ?_⟩
  have : profileOf exAxis [0, 0, 0, -1, 1, -3, 5] exErr (exEl 3 true) = [0, 0, 0, 1, 2, 1, 0] := by decide +kernel
  rw [this]
  simp [dot, exErr, Finset.sum_range_succ]
  norm_num

/-- **C196 fails for absorption lines**: a template with exactly the shape of the line under it, on a continuum of 10, is not changed. -/
theorem C196_absorption_counterexample :
    orthogonalize true id exAxis [10, 10, 10, 9, 8, 9, 10] exErr [exEl 3 false] = .ok [10, 10, 10, 9, 8, 9, 10] := by
  exact C196_absorption id exAxis [10, 10, 10, 9, 8, 9, 10] exErr rfl rfl [exEl 3 false] (by intro e he; rw [List.mem_singleton] at he; subst he; exact exReady [10, 10, 10, 9, 8, 9, 10] rfl 3 (by omega) false) (List.pairwise_singleton _ _)
    (by intro e he; rw [List.mem_singleton] at he; subst he; rfl)

end Ortho
end Amazed
