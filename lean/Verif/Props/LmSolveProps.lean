import Verif.Model.LmSolve
import Verif.Props.PdfRename
import Verif.Props.LmCandsProps
import Verif.Props.TplFitTotal

set_option linter.unusedVariables false
set_option linter.unusedSectionVars false

/-! # C182, C183: the line model solver: its second first pass, its results, its number of candidates -/

namespace Amazed
namespace LmCands
open LmResult SecondPass

variable {K V S C : Type} [Field K] [LinearOrder K] [IsStrictOrderedRing K]

theorem setStep_cands (elv alv : S → Option K) (r : LmRes K V S C) (zc zc' : List (ZCand K)) (hz : zc.map ZCand.z = zc'.map ZCand.z)
    (C' : List (Option (ZCand K))) (k : Nat) (p : PassRes K C) :
    setStep elv alv r zc' k ⟨C', p.tpl, p.elv, p.alv⟩ = setStep elv alv r zc k p >>= fun q => .ok ⟨C', q.tpl, q.elv, q.alv⟩ := by
  unfold setStep
  have hk : (zc[k]?).map ZCand.z = (zc'[k]?).map ZCand.z := by rw [← List.getElem?_map, ← List.getElem?_map, hz]
  unfold Res.at_
  cases h : zc[k]? with
  | none =>
    cases h' : zc'[k]? with
    | none => rfl
    | some c' => rw [h, h'] at hk; cases hk
  | some c =>
    cases h' : zc'[k]? with
    | none => rw [h, h'] at hk; cases hk
    | some c' =>
      rw [h, h'] at hk
      have hk' : c.z = c'.z := by simpa using hk
      simp only [Res.bind_ok]
      rw [hk']
      cases getIndex r.redshifts c'.z with
      | throw e => rfl
      | ub => rfl
      | ok idx =>
        simp only [Res.bind_ok]
        cases r.lmSol[idx]? with
        | none => rfl
        | some s =>
          simp only [Res.bind_ok]
          cases setElt p.elv k (elv s) with
          | throw e => rfl
          | ub => rfl
          | ok e =>
            simp only [Res.bind_ok]
            cases setElt p.alv k (alv s) with
            | throw e => rfl
            | ub => rfl
            | ok a =>
              simp only [Res.bind_ok]
              cases r.contSol[idx]? with
              | none => rfl
              | some t =>
                simp only [Res.bind_ok]
                cases setElt p.tpl k t <;> rfl

/-- The list of candidates kept depends on the identifiers only through the candidates themselves. -/
theorem setFirst_cands (elv alv : S → Option K) (c0 : C) (r : LmRes K V S C) (zc zc' : List (ZCand K)) (hz : zc.map ZCand.z = zc'.map ZCand.z)
    (p : PassRes K C) :
    setFirst elv alv c0 r zc' p = setFirst elv alv c0 r zc p >>= fun q => .ok ⟨zc'.map some, q.tpl, q.elv, q.alv⟩ := by
  have hl : zc.length = zc'.length := by simpa using congrArg List.length hz
  have key : ∀ (n k : Nat) (q : PassRes K C), Res.foldN (setStep elv alv r zc') k n ⟨zc'.map some, q.tpl, q.elv, q.alv⟩ =
      Res.foldN (setStep elv alv r zc) k n q >>= fun q => .ok ⟨zc'.map some, q.tpl, q.elv, q.alv⟩ := by
    intro n
    induction n with
    | zero => intro k q; rfl
    | succ n ih =>
      intro k q
      unfold Res.foldN
      rw [setStep_cands elv alv r zc zc' hz]
      cases setStep elv alv r zc k q with
      | throw e => rfl
      | ub => rfl
      | ok q' => simp only [Res.bind_ok]; exact ih _ _
  unfold setFirst
  simp only
  rw [← hl]
  exact key _ _ ⟨zc.map some, _, _, _⟩

theorem setFirst_lengths (elv alv : S → Option K) (c0 : C) (r : LmRes K V S C) (zc : List (ZCand K)) (p q : PassRes K C)
    (h : setFirst elv alv c0 r zc p = .ok q) :
    q.cands = zc.map some ∧ q.tpl.length = zc.length ∧ q.elv.length = zc.length ∧ q.alv.length = zc.length := by
  unfold setFirst at h
  simp only at h
  refine TplFit.Res.foldN_inv_ok (f := setStep elv alv r zc) (fun _ q => q.cands = zc.map some ∧ q.tpl.length = zc.length ∧
    q.elv.length = zc.length ∧ q.alv.length = zc.length) zc.length 0 _ _ ?_ ?_ h
  · simp only [PassRes.resize, resize_length, and_self]
  · intro i a b _ _ ⟨h1, h2, h3, h4⟩ hs
    unfold setStep at hs
    obtain ⟨c, -, hs⟩ := Res.bind_eq_ok.1 hs
    obtain ⟨idx, -, hs⟩ := Res.bind_eq_ok.1 hs
    obtain ⟨s, -, hs⟩ := Res.bind_eq_ok.1 hs
    obtain ⟨e, e1, hs⟩ := Res.bind_eq_ok.1 hs
    obtain ⟨al, e2, hs⟩ := Res.bind_eq_ok.1 hs
    obtain ⟨t, -, hs⟩ := Res.bind_eq_ok.1 hs
    obtain ⟨tp, e3, hs⟩ := Res.bind_eq_ok.1 hs
    cases hs
    obtain ⟨rfl, -⟩ := setElt_ok e1
    obtain ⟨rfl, -⟩ := setElt_ok e2
    obtain ⟨rfl, -⟩ := setElt_ok e3
    exact ⟨h1, by simpa using h2, by simpa using h3, by simpa using h4⟩

theorem nearAny_self (thr : K) (ht : 0 < thr) (z : K) : ∀ l : List (ZCand K), z ∈ l.map ZCand.z → nearAny thr z (l.map some) = .ok true := by
  intro l
  induction l with
  | nil => intro h; simp at h
  | cons c cs ih =>
    intro h
    rw [List.map_cons]
    unfold nearAny deref
    simp only [Res.bind_ok]
    by_cases hc : |z - c.z| < thr
    · rw [if_pos hc]
    · rw [if_neg hc]
      rw [List.map_cons, List.mem_cons] at h
      rcases h with rfl | h
      · exact absurd (by simpa using ht) hc
      · exact ih h

/-- Candidates at redshifts that are already there are not added. -/
theorem combine_same (thr : K) (ht : 0 < thr) (name : C → String) (c0 : C) (r : LmRes K V S C) (a b : PassRes K C) (za zb : List (ZCand K))
    (ha : a.cands = za.map some) (hb : b.cands = zb.map some) (hz : ∀ z ∈ zb.map ZCand.z, z ∈ za.map ZCand.z)
    (h1 : a.tpl.length = za.length) (h2 : a.elv.length = za.length) (h3 : a.alv.length = za.length) :
    combine thr name c0 r a b = .ok a := by
  unfold combine
  have hu : unique thr a b = .ok [] := by
    unfold unique
    obtain ⟨u, e1, e2⟩ := Res.foldN_inv (f := uniqueStep thr a b) (fun _ u => u = []) b.cands.length 0 [] rfl (by
      intro k u _ hk hu
      refine ⟨[], ?_, rfl⟩
      have hk' : k < zb.length := by rw [hb] at hk; simpa using hk
      unfold uniqueStep PassRes.cand
      rw [hb, Res.at_of_lt (by simpa using hk'), Res.bind_ok, List.getElem_map]
      unfold deref
      simp only [Res.bind_ok]
      rw [ha, nearAny_self thr ht _ _ (hz _ (List.mem_map.2 ⟨_, List.getElem_mem hk', rfl⟩)), Res.bind_ok, hu]
      rfl)
    rw [e1, e2]
  rw [hu, Res.bind_ok]
  simp only [List.length_nil, Nat.add_zero, Res.foldN]
  have hres : ∀ {B : Type} (d : B) (l : List B) (n : Nat), l.length = n → resizeV d n l = l := by
    intro B d l n h
    unfold resizeV
    rw [← h, List.take_length, Nat.sub_self]
    simp
  have hla : a.cands.length = za.length := by rw [ha]; simp
  unfold PassRes.resize
  rw [hres _ _ _ rfl, hres _ _ _ (h1.trans hla.symm), hres _ _ _ (h2.trans hla.symm), hres _ _ _ (h3.trans hla.symm)]

end LmCands

namespace LmSolve
open LmResult LmCands PdfOp

variable {V S C E : Type}

theorem find_ren (o : Opts) (n : Env V S C E) (hz : IgnoresIds n.zsorter) (pre : String) (r : LmRes ℝ V S C) :
    find n (fpCfg o pre) r [] [] = find n (fpCfg o "") r [] [] >>= fun x => .ok (x.1.map (renOut pre), x.2) := by
  unfold find
  cases n.chi r with
  | throw e => rfl
  | ub => rfl
  | ok a =>
    simp only [Res.bind_ok]
    rw [show fpCfg o pre = { fpCfg o "" with pre := pre } from rfl, compute_ren hz]
    rw [show ({ fpCfg o "" with pre := "" } : Cfg) = fpCfg o "" from rfl]
    cases PdfOp.compute (fpCfg o "") n.sorter n.zsorter (n.regrid r []) a [] [] with
    | throw e => rfl
    | ub => rfl
    | ok l =>
      simp only [Res.bind_ok]
      cases Pdfz.combinePdf (fpCfg o "").opt a <;> rfl

/-- The second first pass, with its own identifiers, finds the candidates of the first one again, and the combination changes nothing. -/
theorem withB_id (o : Opts) (n : Env V S C E) (hz : IgnoresIds n.zsorter) (r : LmRes ℝ V S C) (p : PassRes ℝ C) (pdf : List ℝ)
    (h : pass o n "FPE" = .ok (r, p, pdf)) : withB o n r p = .ok p := by
  unfold withB
  by_cases hb : enableB o
  swap
  · rw [if_neg hb]
  rw [if_pos hb]
  unfold pass at h
  obtain ⟨r0, h1, h⟩ := Res.bind_eq_ok.1 h
  obtain ⟨x, h2, h⟩ := Res.bind_eq_ok.1 h
  obtain ⟨q, h3, h⟩ := Res.bind_eq_ok.1 h
  cases h
  rw [find_ren o n hz] at h2
  obtain ⟨y, y1, y2⟩ := Res.bind_eq_ok.1 h2
  cases y2
  have hzz : ((y.1.map (renOut "FPE")).map zcand).map ZCand.z = ((y.1.map (renOut "FPB")).map zcand).map ZCand.z := by
    simp only [List.map_map]; rfl
  have hB : pass o n "FPB" = .ok (r, ⟨((y.1.map (renOut "FPB")).map zcand).map some, p.tpl, p.elv, p.alv⟩, y.2) := by
    unfold pass
    rw [h1, Res.bind_ok, find_ren o n hz, y1, Res.bind_ok, Res.bind_ok, setFirst_cands _ _ _ _ _ _ hzz, h3, Res.bind_ok]
    rfl
  obtain ⟨l1, l2, l3, l4⟩ := setFirst_lengths _ _ _ _ _ _ _ h3
  rw [hB, Res.bind_ok]
  refine combine_same (5 / 10000) (by norm_num) n.name n.c0 r p _ _ _ l1 rfl ?_ l2 l3 l4
  intro z hz
  rw [hzz]
  exact hz

/-- **C182 (partial).** Whatever the number `extremaCountB` of candidates asked from the second first pass, the solver stores the same results and
ends in the same way as without it, for every first pass. The claim that this pass adds the candidates found with the continuum of the spectrum is
false (`C182_false`). -/
theorem C182_second_first_pass_partial (o : Opts) (n : Env V S C E) (hz : IgnoresIds n.zsorter) (count : Int) (path : String)
    (s : ResultStore (Val V S C E)) :
    compute { o with extCountB := count } n path s = compute { o with extCountB := 0 } n path s := by
  have hw : ∀ a : LmRes ℝ V S C × PassRes ℝ C × List ℝ, pass o n "FPE" = .ok a →
      withB { o with extCountB := count } n a.1 a.2.1 = withB { o with extCountB := 0 } n a.1 a.2.1 := by
    intro a ha
    rw [withB_id { o with extCountB := count } n hz a.1 a.2.1 a.2.2 ha, withB_id { o with extCountB := 0 } n hz a.1 a.2.1 a.2.2 ha]
  have hs : solve { o with extCountB := count } n path s = solve { o with extCountB := 0 } n path s := by
    unfold solve
    rw [show pass { o with extCountB := count } n "FPE" = pass o n "FPE" from rfl,
      show pass { o with extCountB := 0 } n "FPE" = pass o n "FPE" from rfl]
    cases h : pass o n "FPE" with
    | throw e => rfl
    | ub => rfl
    | ok a =>
      have e := hw a h
      simp only [andThen]
      rw [e]
      rfl
  unfold compute
  rw [hs]
  rfl

/-- Only the value of the parameter `continuumComponent` matters: a first pass with the continuum of the spectrum is never run for another value. -/
theorem C182_continuum (o : Opts) (n : Env V S C E) (f : String → Res (LmRes ℝ V S C)) (hf : f o.cont = n.first o.cont) (path : String)
    (s : ResultStore (Val V S C E)) : compute o { n with first := f } path s = compute o n path s := by
  have hp : ∀ pre, pass o { n with first := f } pre = pass o n pre := by
    intro pre
    unfold pass
    simp only
    rw [hf]
    rfl
  have hb : withB o { n with first := f } = withB o n := by
    funext r p
    unfold withB
    rw [hp]
  have hs : solve o { n with first := f } path s = solve o n path s := by
    unfold solve
    rw [hp, hb]
    rfl
  unfold compute
  rw [hs]
  rfl

/-! ## The results stored -/

/-- The store with the results of the list added under their names, one after the other. -/
def putAll (path : String) (l : List (String × Val V S C E)) (s : ResultStore (Val V S C E)) : ResultStore (Val V S C E) :=
  l.foldl (fun s x => { s with global := fun k => if k = ResultStore.storeKey path x.1 then some x.2 else s.global k }) s

/-- A run that stores results under the names in order, all of them when it ends well, with `Q` of the values stored and of its value. -/
def Runs {B : Type} (path : String) (names : List String) (s : ResultStore (Val V S C E)) (y : ResultStore (Val V S C E) × Res B)
    (Q : List (Val V S C E) → B → Prop) : Prop :=
  ∃ vs : List (Val V S C E), y.1 = putAll path (names.zip vs) s ∧ vs.length ≤ names.length ∧
    (∀ x ∈ names.zip vs, s.global (ResultStore.storeKey path x.1) = none) ∧
    ∀ b, y.2 = .ok b → vs.length = names.length ∧ Q vs b

theorem Runs.calc {A B : Type} {path : String} {names : List String} {s : ResultStore (Val V S C E)} {r : Res A}
    {f : A → ResultStore (Val V S C E) → ResultStore (Val V S C E) × Res B} {Q : List (Val V S C E) → B → Prop}
    (h : ∀ a, r = .ok a → Runs path names s (f a s) Q) : Runs path names s (andThen (s, r) f) Q := by
  cases r with
  | ok a => exact h a rfl
  | throw e => exact ⟨[], by simp [andThen, putAll], by simp, by simp, fun b hb => nomatch hb⟩
  | ub => exact ⟨[], by simp [andThen, putAll], by simp, by simp, fun b hb => nomatch hb⟩

theorem storeKey_inj {path a b : String} (h : ResultStore.storeKey path a = ResultStore.storeKey path b) : a = b := (prefix_inj _ _ _).1 h

theorem Runs.store {B : Type} {path nm : String} {names : List String} {v : Val V S C E} {s : ResultStore (Val V S C E)}
    {f : Unit → ResultStore (Val V S C E) → ResultStore (Val V S C E) × Res B} {Q : List (Val V S C E) → B → Prop} (hnm : nm ∉ names)
    (h : Runs path names { s with global := fun k => if k = ResultStore.storeKey path nm then some v else s.global k }
      (f () { s with global := fun k => if k = ResultStore.storeKey path nm then some v else s.global k }) (fun vs b => Q (v :: vs) b)) :
    Runs path (nm :: names) s (andThen (s.storeGlobal path nm v) f) Q := by
  unfold ResultStore.storeGlobal ResultStore.storeResult
  cases hk : s.global (ResultStore.storeKey path nm) with
  | some w => exact ⟨[], by simp [andThen, putAll], by simp, by simp, fun b hb => nomatch hb⟩
  | none =>
    obtain ⟨vs, h1, h2, h3, h4⟩ := h
    refine ⟨v :: vs, h1, by simp only [List.length_cons]; omega, ?_, fun b hb => ?_⟩
    · intro x hx
      rw [List.zip_cons_cons, List.mem_cons] at hx
      rcases hx with rfl | hx
      · exact hk
      · have hne : ResultStore.storeKey path x.1 ≠ ResultStore.storeKey path nm :=
          fun he => hnm (storeKey_inj he ▸ (List.of_mem_zip hx).1)
        have := h3 x hx
        simp only [if_neg hne] at this
        exact this
    · obtain ⟨g1, g2⟩ := h4 b hb
      exact ⟨by simp only [List.length_cons, g1], g2⟩

theorem andThen_assoc {A B D : Type} (x : ResultStore (Val V S C E) × Res A)
    (f : A → ResultStore (Val V S C E) → ResultStore (Val V S C E) × Res B) (g : B → ResultStore (Val V S C E) → ResultStore (Val V S C E) × Res D) :
    andThen (andThen x f) g = andThen x fun a s => andThen (f a s) g := by
  obtain ⟨s, r⟩ := x
  cases r <;> rfl

/-- The names of the results, in the order in which they are stored. -/
def names : List String := ["firstpass_pdf", "firstpass_pdf_params", "lineModel_firstpass_extrema", "lineModel", "pdf", "pdf_params", "extrema_results"]

/-- What a complete run stores: the PDF of the first pass twice, the candidates of the first pass, the merits after the second pass, the final PDF
twice and the final candidates `out`, the first of which is given to the caller. -/
def Complete (o : Opts) (n : Env V S C E) (vs : List (Val V S C E)) (best : Out) : Prop :=
  ∃ r p pdf1 l r2 ws ids out pdf2 e, pass o n "FPE" = .ok (r, p, pdf1) ∧ firstExtrema r p = .ok l ∧ secondIf o n r p l = .ok (r2, ws) ∧
    parents p ws = .ok ids ∧ find n (spCfg o) r2 ids ws = .ok (out, pdf2) ∧ n.extr r2 p out = .ok e ∧ out[0]? = some best ∧
    vs = [.pdf pdf1, .pdf pdf1, .fpExtrema l, .lm r2, .pdf pdf2, .pdf pdf2, .extrema e]

/-- **C183, results stored.** Whatever the passes do, the solver adds results to the store under the seven names and in that order, stopping at a
failure; it never changes a result that was stored before; when it ends well all seven are there and are those of the same run. -/
theorem C183_stored (o : Opts) (n : Env V S C E) (hz : IgnoresIds n.zsorter) (path : String) (s : ResultStore (Val V S C E)) :
    Runs path names s (compute o n path s) (Complete o n) := by
  unfold compute solve
  simp only [andThen_assoc]
  unfold names
  refine Runs.calc fun a ha => Runs.store (by decide) (Runs.store (by decide) (Runs.calc fun p hp => Runs.calc fun l hl =>
    Runs.store (by decide) (Runs.calc fun w hw => Runs.store (by decide) ?_)))
  refine Runs.calc (r := .ok (p, w.2)) fun q hq => ?_
  cases hq
  refine Runs.calc fun r hr => Runs.calc fun x hx => Runs.store (by decide) (Runs.store (by decide) (Runs.calc fun e he =>
    Runs.store (by decide) ?_))
  refine ⟨[], rfl, by simp, by simp, fun b hb => ⟨rfl, ?_⟩⟩
  rw [withB_id o n hz a.1 a.2.1 a.2.2 ha] at hp
  cases hp
  have hr2 : r = w.1 := by
    unfold readLm ResultStore.getGlobal at hr
    simp only [if_true, Res.bind_ok] at hr
    exact (Res.ok.inj hr).symm
  subst hr2
  obtain ⟨ids, i1, i2⟩ := Res.bind_eq_ok.1 hx
  exact ⟨a.1, a.2.1, a.2.2, l, w.1, w.2, ids, x.1, x.2, e, ha, hl, hw, i1, i2, he, Res.at_eq_ok.1 hb, rfl⟩

/-- A result stored before is still there, unchanged. -/
theorem C183_kept (o : Opts) (n : Env V S C E) (hz : IgnoresIds n.zsorter) (path : String) (s : ResultStore (Val V S C E)) :
    (∀ k v, s.global k = some v → (compute o n path s).1.global k = some v) ∧ (compute o n path s).1.perTemplate = s.perTemplate := by
  obtain ⟨vs, h1, -, h3, -⟩ := C183_stored o n hz path s
  rw [h1]
  have key : ∀ (l : List (String × Val V S C E)) (s' : ResultStore (Val V S C E)), (putAll path l s').perTemplate = s'.perTemplate ∧
      ∀ k, (∀ x ∈ l, k ≠ ResultStore.storeKey path x.1) → (putAll path l s').global k = s'.global k := by
    intro l
    induction l with
    | nil => intro s'; exact ⟨rfl, fun _ _ => rfl⟩
    | cons x xs ih =>
      intro s'
      obtain ⟨g1, g2⟩ := ih { s' with global := fun k => if k = ResultStore.storeKey path x.1 then some x.2 else s'.global k }
      refine ⟨g1, fun k hk => (g2 k fun y hy => hk y (List.mem_cons_of_mem _ hy)).trans ?_⟩
      simp only [if_neg (hk x (List.mem_cons_self ..))]
  refine ⟨fun k v hv => ?_, (key _ _).1⟩
  rw [(key _ _).2 k, hv]
  intro x hx he
  have := h3 x hx
  rw [← he, hv] at this
  cases this

/-- None of the names is in the store. -/
def Fresh (path : String) (s : ResultStore (Val V S C E)) (l : List String) : Prop := ∀ nm ∈ l, s.global (ResultStore.storeKey path nm) = none

/-- Two runs of the same steps, on two stores where the names are free, end in the same way. -/
def Ends {B : Type} (path path' : String) (l : List String) (f : ResultStore (Val V S C E) → ResultStore (Val V S C E) × Res B)
    (g : ResultStore (Val V S C E) → ResultStore (Val V S C E) × Res B) : Prop :=
  ∀ s t, Fresh path s l → Fresh path' t l → (f s).2 = (g t).2

theorem Ends.calc {A B : Type} {path path' : String} {l : List String} {r : Res A}
    {f g : A → ResultStore (Val V S C E) → ResultStore (Val V S C E) × Res B} (h : ∀ a, r = .ok a → Ends path path' l (f a) (g a)) :
    Ends path path' l (fun s => andThen (s, r) f) (fun s => andThen (s, r) g) := by
  intro s t hs ht
  cases r with
  | ok a => exact h a rfl s t hs ht
  | throw e => rfl
  | ub => rfl

theorem fresh_put {path nm : String} {l : List String} {v : Val V S C E} {s : ResultStore (Val V S C E)} (hnm : nm ∉ l) (h : Fresh path s (nm :: l)) :
    Fresh path { s with global := fun k => if k = ResultStore.storeKey path nm then some v else s.global k } l := by
  intro m hm
  simp only
  rw [if_neg (fun e => hnm (by have := storeKey_inj e; subst this; exact hm))]
  exact h m (List.mem_cons_of_mem _ hm)

theorem Ends.store {B : Type} {path path' nm : String} {l : List String} {v : Val V S C E}
    {f g : Unit → ResultStore (Val V S C E) → ResultStore (Val V S C E) × Res B} (hnm : nm ∉ l) (h : Ends path path' l (f ()) (g ())) :
    Ends path path' (nm :: l) (fun s => andThen (s.storeGlobal path nm v) f) (fun s => andThen (s.storeGlobal path' nm v) g) := by
  intro s t hs ht
  have e : ∀ (p : String) (s : ResultStore (Val V S C E)), Fresh p s (nm :: l) → s.storeGlobal p nm v =
      ({ s with global := fun k => if k = ResultStore.storeKey p nm then some v else s.global k }, .ok ()) := by
    intro p s h
    unfold ResultStore.storeGlobal ResultStore.storeResult
    rw [h nm (List.mem_cons_self ..)]
  beta_reduce
  rw [e _ _ hs, e _ _ ht]
  exact h _ _ (fresh_put hnm hs) (fresh_put hnm ht)

/-- **C183, independence.** On stores where the names are free under the scope, the end of the solver and its value do not depend on the scope nor on
what else was stored: in particular a store never refuses a result. -/
theorem C183_independent (o : Opts) (n : Env V S C E) (path path' : String) (s t : ResultStore (Val V S C E)) (hs : Fresh path s names)
    (ht : Fresh path' t names) : (compute o n path s).2 = (compute o n path' t).2 := by
  have key : Ends path path' names (compute o n path) (compute o n path') := by
    have e : ∀ path, compute o n path = fun s => compute o n path s := fun _ => rfl
    rw [e path, e path']
    unfold compute solve
    simp only [andThen_assoc]
    unfold names
    refine Ends.calc fun a ha => Ends.store (by decide) (Ends.store (by decide) (Ends.calc fun p hp => Ends.calc fun l hl =>
      Ends.store (by decide) (Ends.calc fun w hw => ?_)))
    -- storing the merits and reading them again
    intro s t hs ht
    have e : ∀ (p : String) (s : ResultStore (Val V S C E)), Fresh p s ["lineModel", "pdf", "pdf_params", "extrema_results"] →
        s.storeGlobal p "lineModel" (.lm w.1) =
        ({ s with global := fun k => if k = ResultStore.storeKey p "lineModel" then some (.lm w.1) else s.global k }, .ok ()) := by
      intro p s h
      unfold ResultStore.storeGlobal ResultStore.storeResult
      rw [h "lineModel" (List.mem_cons_self ..)]
    have hrd : ∀ (p : String) (s : ResultStore (Val V S C E)), readLm p
        { s with global := fun k => if k = ResultStore.storeKey p "lineModel" then some (.lm w.1) else s.global k } = .ok w.1 := by
      intro p s
      unfold readLm ResultStore.getGlobal
      simp only [if_true, Res.bind_ok]
    have hs' := fresh_put (v := .lm w.1) (by decide) hs
    have ht' := fresh_put (v := .lm w.1) (by decide) ht
    have hok : ∀ {A B : Type} (s : ResultStore (Val V S C E)) (a : A) (f : A → ResultStore (Val V S C E) → ResultStore (Val V S C E) × Res B),
        andThen (s, .ok a) f = f a s := fun _ _ _ => rfl
    beta_reduce
    rw [e _ _ hs, e _ _ ht]
    simp only [hok, hrd]
    have k2 : Ends (V := V) (S := S) (C := C) (E := E) path path' ["pdf", "pdf_params", "extrema_results"]
        (fun s => andThen (s, parents p w.2 >>= fun ids => find n (spCfg o) w.1 ids w.2) fun x s =>
          andThen (s.storeGlobal path "pdf" (.pdf x.2)) fun _ s => andThen (s.storeGlobal path "pdf_params" (.pdf x.2)) fun _ s =>
          andThen (s, n.extr w.1 p x.1) fun e s => andThen (s.storeGlobal path "extrema_results" (.extrema e)) fun _ s => (s, Res.at_ x.1 0))
        (fun s => andThen (s, parents p w.2 >>= fun ids => find n (spCfg o) w.1 ids w.2) fun x s =>
          andThen (s.storeGlobal path' "pdf" (.pdf x.2)) fun _ s => andThen (s.storeGlobal path' "pdf_params" (.pdf x.2)) fun _ s =>
          andThen (s, n.extr w.1 p x.1) fun e s => andThen (s.storeGlobal path' "extrema_results" (.extrema e)) fun _ s => (s, Res.at_ x.1 0)) :=
      Ends.calc fun x hx => Ends.store (by decide) (Ends.store (by decide) (Ends.calc fun e he => Ends.store (by decide) fun _ _ _ _ => rfl))
    exact k2 _ _ hs' ht'
  exact key s t hs ht

end LmSolve
end Amazed
