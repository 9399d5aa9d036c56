import Verif.Model.LmCands
import Verif.Props.SecondPassProps
import Verif.Props.TplFitTotal

set_option linter.unusedVariables false
set_option linter.unusedSectionVars false

/-! # C105: candidates of the first pass, and of two first passes -/

namespace Amazed
namespace LmCands
open LmResult SecondPass

variable {K V S C : Type} [Field K] [LinearOrder K] [IsStrictOrderedRing K]

/-- What is known of a candidate of the first pass. -/
structure Entry (K C : Type) where
  c : ZCand K
  tpl : C
  elv : Option K
  alv : Option K

/-- The object holds the entries `l`, in order. -/
structure Holds (p : PassRes K C) (l : List (Entry K C)) : Prop where
  cands : p.cands = l.map fun e => some e.c
  tpl : p.tpl = l.map Entry.tpl
  elv : p.elv = l.map Entry.elv
  alv : p.alv = l.map Entry.alv

/-- The first `k` values of `xs` are those of `tgt`, of the same length. -/
def Filled {β : Type} (k : Nat) (tgt xs : List β) : Prop := xs.length = tgt.length ∧ ∀ i, i < k → xs[i]? = tgt[i]?

theorem Filled.step {β : Type} {k : Nat} {tgt xs : List β} {v : β} (h : Filled k tgt xs) (hv : tgt[k]? = some v) :
    setElt xs k v = .ok (xs.set k v) ∧ Filled (k + 1) tgt (xs.set k v) := by
  have hk : k < xs.length := by rw [h.1]; exact (List.getElem?_eq_some_iff.1 hv).1
  refine ⟨?_, by simpa using h.1, fun i hi => ?_⟩
  · unfold setElt
    rw [Res.at_of_lt hk, Res.bind_ok]
  · rcases Nat.lt_or_ge i k with h' | h'
    · rw [List.getElem?_set_ne (by omega)]; exact h.2 i h'
    · obtain rfl : i = k := by omega
      rw [List.getElem?_set_self hk, hv]

theorem Filled.done {β : Type} {k : Nat} {tgt xs : List β} (h : Filled k tgt xs) (hk : tgt.length ≤ k) : xs = tgt := by
  apply List.ext_getElem?
  intro i
  rcases Nat.lt_or_ge i tgt.length with h' | h'
  · exact h.2 i (by omega)
  · rw [List.getElem?_eq_none (by rw [h.1]; exact h'), List.getElem?_eq_none h']

theorem resize_length {β : Type} (d : β) (n : Nat) (l : List β) : (resizeV d n l).length = n := by
  unfold resizeV
  simp
  omega

theorem forall₂_of_forall {α β : Type} {R : α → β → Prop} : ∀ l : List α, (∀ a ∈ l, ∃ b, R a b) → ∃ m, List.Forall₂ R l m := by
  intro l
  induction l with
  | nil => intro _; exact ⟨[], .nil⟩
  | cons a l ih =>
    intro h
    obtain ⟨b, hb⟩ := h a (List.mem_cons_self ..)
    obtain ⟨m, hm⟩ := ih fun a h' => h a (List.mem_cons_of_mem _ h')
    exact ⟨b :: m, .cons hb hm⟩

theorem forall₂_at {α β : Type} {R : α → β → Prop} {l : List α} {m : List β} (h : List.Forall₂ R l m) (i : Nat) (a : α)
    (ha : l[i]? = some a) : ∃ b, m[i]? = some b ∧ R a b := by
  induction h generalizing i with
  | nil => simp at ha
  | cons hab _ ih =>
    cases i with
    | zero => simp only [List.getElem?_cons_zero, Option.some.injEq] at ha; subst ha; exact ⟨_, rfl, hab⟩
    | succ i => simpa using ih i (by simpa using ha)

/-- The entry of candidate `c` in the result `r`: the velocities and the continuum of the fit at its redshift. -/
def FitOf (elv alv : S → Option K) (r : LmRes K V S C) (c : ZCand K) (e : Entry K C) : Prop :=
  e.c = c ∧ ∃ idx s, getIndex r.redshifts c.z = .ok idx ∧ r.lmSol[idx]? = some s ∧ r.contSol[idx]? = some e.tpl ∧ e.elv = elv s ∧ e.alv = alv s

theorem fitOf_exists (elv alv : S → Option K) (r : LmRes K V S C) (hs : r.lmSol.length = r.redshifts.length)
    (hc : r.contSol.length = r.redshifts.length) (c : ZCand K) (h : c.z ∈ r.redshifts) : ∃ e, FitOf elv alv r c e := by
  obtain ⟨idx, hi⟩ := getIndex_mem r.redshifts c.z h
  have h1 := (List.getElem?_eq_some_iff.1 (SecondPass.getIndex_ok hi)).1
  have h2 : idx < r.lmSol.length := by omega
  have h3 : idx < r.contSol.length := by omega
  exact ⟨⟨c, r.contSol[idx], elv r.lmSol[idx], alv r.lmSol[idx]⟩, rfl, idx, r.lmSol[idx], hi, List.getElem?_eq_getElem h2,
    List.getElem?_eq_getElem h3, rfl, rfl⟩

theorem FitOf.step {elv alv : S → Option K} {r : LmRes K V S C} {zc : List (ZCand K)} {l : List (Entry K C)} {c : ZCand K} {e : Entry K C}
    (he : FitOf elv alv r c e) {k : Nat} {p : PassRes K C} (hz : zc[k]? = some c) (hl : l[k]? = some e)
    (hp : Filled k (l.map Entry.tpl) p.tpl ∧ Filled k (l.map Entry.elv) p.elv ∧ Filled k (l.map Entry.alv) p.alv) :
    ∃ p', setStep elv alv r zc k p = .ok p' ∧ p'.cands = p.cands ∧ Filled (k + 1) (l.map Entry.tpl) p'.tpl ∧
      Filled (k + 1) (l.map Entry.elv) p'.elv ∧ Filled (k + 1) (l.map Entry.alv) p'.alv := by
  obtain ⟨_, idx, s, h1, h2, h3, h4, h5⟩ := he
  obtain ⟨p1, p2, p3⟩ := hp
  obtain ⟨a1, a2⟩ := p1.step (v := e.tpl) (by rw [List.getElem?_map, hl]; rfl)
  obtain ⟨b1, b2⟩ := p2.step (v := e.elv) (by rw [List.getElem?_map, hl]; rfl)
  obtain ⟨c1, c2⟩ := p3.step (v := e.alv) (by rw [List.getElem?_map, hl]; rfl)
  refine ⟨⟨p.cands, p.tpl.set k e.tpl, p.elv.set k e.elv, p.alv.set k e.alv⟩, ?_, rfl, a2, b2, c2⟩
  unfold setStep
  rw [Res.at_eq_ok.2 hz, Res.bind_ok, h1, Res.bind_ok, Res.at_eq_ok.2 h2, Res.bind_ok, ← h4, b1, Res.bind_ok, ← h5, c1, Res.bind_ok,
    Res.at_eq_ok.2 h3, Res.bind_ok, a1, Res.bind_ok]

/-- **C105, candidates of a first pass.** Whatever the object held before, it holds the given candidates in their order, each with the
velocities and the continuum of the fit at its redshift. -/
theorem C105_first_pass (elv alv : S → Option K) (c0 : C) (r : LmRes K V S C) (zc : List (ZCand K)) (p : PassRes K C)
    (hs : r.lmSol.length = r.redshifts.length) (hc : r.contSol.length = r.redshifts.length) (hz : ∀ c ∈ zc, c.z ∈ r.redshifts) :
    ∃ q l, setFirst elv alv c0 r zc p = .ok q ∧ Holds q l ∧ List.Forall₂ (FitOf elv alv r) zc l := by
  obtain ⟨l, hl⟩ := forall₂_of_forall zc fun c h => fitOf_exists elv alv r hs hc c (hz c h)
  have hlen := hl.length_eq
  unfold setFirst
  simp only
  obtain ⟨q, h1, h2, h3, h4, h5⟩ := Res.foldN_inv (f := setStep elv alv r zc) (fun k (q : PassRes K C) => q.cands = zc.map some ∧
      Filled k (l.map Entry.tpl) q.tpl ∧ Filled k (l.map Entry.elv) q.elv ∧ Filled k (l.map Entry.alv) q.alv) zc.length 0
      ⟨zc.map some, (p.resize c0 zc.length).tpl, (p.resize c0 zc.length).elv, (p.resize c0 zc.length).alv⟩ (by
        refine ⟨rfl, ⟨?_, fun i h => by omega⟩, ⟨?_, fun i h => by omega⟩, ⟨?_, fun i h => by omega⟩⟩ <;>
          simp only [PassRes.resize, resize_length, List.length_map, hlen]) (by
      intro k q _ hk hq
      rw [Nat.zero_add] at hk
      obtain ⟨e, he, hf⟩ := forall₂_at hl k _ (List.getElem?_eq_getElem hk)
      obtain ⟨q', g1, g2, g3⟩ := hf.step (List.getElem?_eq_getElem hk) he hq.2
      exact ⟨q', g1, g2.trans hq.1, g3⟩)
  rw [Nat.zero_add] at h3 h4 h5
  refine ⟨q, l, h1, ⟨?_, h3.done (by simp [hlen]), h4.done (by simp [hlen]), h5.done (by simp [hlen])⟩, hl⟩
  rw [h2]
  clear h1 h2 h3 h4 h5 hlen hz
  induction hl with
  | nil => rfl
  | cons h _ ih => simp only [List.map_cons, ih, h.1]

/-- A candidate that is not in the redshift grid is an error. -/
theorem C105_not_in_grid (elv alv : S → Option K) (c0 : C) (r : LmRes K V S C) (zc : List (ZCand K)) (p : PassRes K C)
    (hs : r.lmSol.length = r.redshifts.length) (hc : r.contSol.length = r.redshifts.length) (hz : ∃ c ∈ zc, c.z ∉ r.redshifts) :
    setFirst elv alv c0 r zc p = .throw .INTERNAL_ERROR := by
  unfold setFirst
  simp only
  rcases Res.foldN_inv_throw (f := setStep elv alv r zc) (fun k (q : PassRes K C) => q.tpl.length = zc.length ∧ q.elv.length = zc.length ∧
      q.alv.length = zc.length ∧ ∀ i c, i < k → zc[i]? = some c → c.z ∈ r.redshifts) (fun e => e = .INTERNAL_ERROR) zc.length 0
      ⟨zc.map some, (p.resize c0 zc.length).tpl, (p.resize c0 zc.length).elv, (p.resize c0 zc.length).alv⟩ (by
        refine ⟨?_, ?_, ?_, fun i c h => by omega⟩ <;> simp only [PassRes.resize, resize_length]) (by
      rintro k q _ hk ⟨q1, q2, q3, q4⟩
      rw [Nat.zero_add] at hk
      unfold setStep
      rw [Res.at_of_lt hk, Res.bind_ok]
      by_cases hm : zc[k].z ∈ r.redshifts
      · left
        obtain ⟨idx, hi⟩ := getIndex_mem r.redshifts _ hm
        have h1 := (List.getElem?_eq_some_iff.1 (SecondPass.getIndex_ok hi)).1
        have h2 : idx < r.lmSol.length := by omega
        have h3 : idx < r.contSol.length := by omega
        obtain ⟨x, hx⟩ := setElt_total (elv r.lmSol[idx]) (show k < q.elv.length by omega)
        obtain ⟨y, hy⟩ := setElt_total (alv r.lmSol[idx]) (show k < q.alv.length by omega)
        obtain ⟨w, hw⟩ := setElt_total r.contSol[idx] (show k < q.tpl.length by omega)
        refine ⟨⟨q.cands, w, x, y⟩, ?_, ?_, ?_, ?_, ?_⟩
        · rw [hi, Res.bind_ok, Res.at_of_lt h2, Res.bind_ok, hx, Res.bind_ok, hy, Res.bind_ok, Res.at_of_lt h3, Res.bind_ok, hw, Res.bind_ok]
        · rw [(setElt_ok hw).1]; simpa using q1
        · rw [(setElt_ok hx).1]; simpa using q2
        · rw [(setElt_ok hy).1]; simpa using q3
        · intro i c hi' hc'
          rcases Nat.lt_or_ge i k with h | h
          · exact q4 i c h hc'
          · obtain rfl : i = k := by omega
            rw [List.getElem?_eq_getElem hk, Option.some.injEq] at hc'
            subst hc'; exact hm
      · right
        rw [((C08_getIndex r.redshifts zc[k].z).2.1).2 hm, Res.bind_throw]
        exact ⟨_, rfl, rfl⟩) with ⟨q, h1, _, _, _, h4⟩ | ⟨e, h1, h2⟩
  · obtain ⟨c, hc', hn⟩ := hz
    obtain ⟨i, hi, rfl⟩ := List.getElem_of_mem hc'
    exact absurd (h4 i _ (by omega) (List.getElem?_eq_getElem hi)) hn
  · rw [h1, h2]

/-! ## Two first passes -/

/-- Within the threshold of a candidate of `la`. -/
def Near (thr : K) (la : List (Entry K C)) (e : Entry K C) : Prop := ∃ x ∈ la, |e.c.z - x.c.z| < thr

theorem nearAny_ok (thr zb : K) (la : List (Entry K C)) :
    ∃ b, nearAny thr zb (la.map fun e => some e.c) = .ok b ∧ (b = true ↔ ∃ x ∈ la, |zb - x.c.z| < thr) := by
  induction la with
  | nil => exact ⟨false, rfl, by simp⟩
  | cons x la ih =>
    obtain ⟨b, h1, h2⟩ := ih
    rw [List.map_cons]
    unfold nearAny deref
    simp only [Res.bind_ok]
    by_cases h : |zb - x.c.z| < thr
    · rw [if_pos h]
      exact ⟨true, rfl, by simp only [true_iff]; exact ⟨x, List.mem_cons_self .., h⟩⟩
    · rw [if_neg h]
      refine ⟨b, h1, ?_⟩
      rw [h2]
      simp [h]

open Classical in
/-- The candidates of `lb` that are not near one of `la`, in order. -/
noncomputable def Added (thr : K) (la lb : List (Entry K C)) : List (Entry K C) := lb.filter fun e => !decide (Near thr la e)

theorem unique_ok (thr : K) (a b : PassRes K C) (la lb : List (Entry K C)) (ha : Holds a la) (hb : Holds b lb) :
    ∃ u, unique thr a b = .ok u ∧ u.map (fun i : Nat => lb[i]?) = (Added thr la lb).map some := by
  unfold unique
  have hlen : b.cands.length = lb.length := by rw [hb.cands]; simp
  obtain ⟨u, h1, h2⟩ := Res.foldN_inv (f := uniqueStep thr a b)
    (fun k u => u.map (fun i : Nat => lb[i]?) = (Added thr la (lb.take k)).map some) b.cands.length 0 [] (by simp [Added]) (by
      intro k u _ hk hu
      rw [Nat.zero_add, hlen] at hk
      obtain ⟨d, hd, hd'⟩ := nearAny_ok thr lb[k].c.z la
      refine ⟨if d then u else u ++ [k], ?_, ?_⟩
      · unfold uniqueStep PassRes.cand
        rw [hb.cands, Res.at_of_lt (by simpa using hk), Res.bind_ok, List.getElem_map]
        unfold deref
        simp only [Res.bind_ok]
        rw [ha.cands, hd, Res.bind_ok]
      · unfold Added at hu ⊢
        rw [List.take_add_one, List.getElem?_eq_getElem hk, Option.toList_some, List.filter_append, List.map_append]
        cases d with
        | true =>
          have : Near thr la lb[k] := hd'.1 rfl
          simp [hu, this]
        | false =>
          have : ¬ Near thr la lb[k] := fun h => by simpa using hd'.2 h
          simp [hu, this, hk])
  refine ⟨u, h1, ?_⟩
  rw [h2, Nat.zero_add, hlen, List.take_length]

/-- The entry added for candidate `e` of the other pass: its velocities, but the continuum this pass fitted at that redshift, which must
have a name. -/
def AddedAs (name : C → String) (r : LmRes K V S C) (e e' : Entry K C) : Prop :=
  e'.c = e.c ∧ e'.elv = e.elv ∧ e'.alv = e.alv ∧ ∃ idx, getIndex r.redshifts e.c.z = .ok idx ∧ r.contSol[idx]? = some e'.tpl ∧ name e'.tpl ≠ ""

theorem resize_filled {β : Type} (d : β) (l m : List β) (n : Nat) (h : n = l.length + m.length) : Filled l.length (l ++ m) (resizeV d n l) := by
  refine ⟨by rw [resize_length]; simp [h], fun i hi => ?_⟩
  unfold resizeV
  rw [List.getElem?_append_left (by simp; omega), List.getElem?_append_left hi, List.getElem?_take, if_pos (by omega)]

/-- **C105, two first passes.** Combining keeps the candidates of the first pass, then appends in their order the candidates of the other
that are not within the threshold of one of them, with the velocities of the other pass and the continuum fitted by this one; it fails exactly
when an appended candidate is not in the grid, or has a continuum without name. -/
theorem C105_combine (thr : K) (name : C → String) (c0 : C) (r : LmRes K V S C) (a b : PassRes K C) (la lb : List (Entry K C))
    (ha : Holds a la) (hb : Holds b lb) (hc : r.contSol.length = r.redshifts.length) :
    (∃ q l, combine thr name c0 r a b = .ok q ∧ List.Forall₂ (AddedAs name r) (Added thr la lb) l ∧ Holds q (la ++ l)) ∨
    (combine thr name c0 r a b = .throw .INTERNAL_ERROR ∧ ∃ e ∈ Added thr la lb, e.c.z ∉ r.redshifts) ∨
    (combine thr name c0 r a b = .throw .TPL_NAME_EMPTY ∧ ∃ e ∈ Added thr la lb, ∃ idx t, getIndex r.redshifts e.c.z = .ok idx ∧
      r.contSol[idx]? = some t ∧ name t = "") := by
  obtain ⟨u, hu, hu'⟩ := unique_ok thr a b la lb ha hb
  have hla : a.cands.length = la.length := by rw [ha.cands]; simp
  have hul : u.length = (Added thr la lb).length := by
    have := congrArg List.length hu'
    simpa using this
  unfold combine
  rw [hu, Res.bind_ok, hla]
  -- the entries appended so far
  have key := Res.foldN_inv_throw (f := combineStep name r b la.length u) (fun k (q : PassRes K C) =>
      ∃ l, List.Forall₂ (AddedAs name r) ((Added thr la lb).take k) l ∧
        ∀ m, m.length = u.length → m.take k = l →
          Filled (la.length + k) ((la ++ m).map fun e => some e.c) q.cands ∧ Filled (la.length + k) ((la ++ m).map Entry.tpl) q.tpl ∧
          Filled (la.length + k) ((la ++ m).map Entry.elv) q.elv ∧ Filled (la.length + k) ((la ++ m).map Entry.alv) q.alv)
    (fun e => (e = .INTERNAL_ERROR ∧ ∃ e ∈ Added thr la lb, e.c.z ∉ r.redshifts) ∨
      (e = .TPL_NAME_EMPTY ∧ ∃ e ∈ Added thr la lb, ∃ idx t, getIndex r.redshifts e.c.z = .ok idx ∧ r.contSol[idx]? = some t ∧ name t = ""))
    u.length 0 (a.resize c0 (la.length + u.length)) (by
      refine ⟨[], by simp, ?_⟩
      intro m hm _
      unfold PassRes.resize
      rw [ha.cands, ha.tpl, ha.elv, ha.alv]
      simp only [List.map_append, Nat.add_zero]
      have aux : ∀ {β : Type} (f : Entry K C → β) (d : β), Filled la.length (la.map f ++ m.map f) (resizeV d (la.length + u.length) (la.map f)) := by
        intro β f d
        have := resize_filled d (la.map f) (m.map f) (la.length + u.length) (by simp [hm])
        simpa using this
      exact ⟨aux _ _, aux _ _, aux _ _, aux _ _⟩) (by
      rintro k q _ hk ⟨l, hl, hq⟩
      rw [Nat.zero_add] at hk
      have hk2 : k < (Added thr la lb).length := by omega
      set e := (Added thr la lb)[k] with he
      have hemem : e ∈ Added thr la lb := List.getElem_mem _
      have hlk : l.length = k := by rw [← hl.length_eq, List.length_take]; omega
      have hui : lb[u[k]]? = some e := by
        have h1 : (u.map (fun i : Nat => lb[i]?))[k]? = some (lb[u[k]]?) := by simp [hk]
        rw [hu'] at h1
        simp only [List.getElem?_map, List.getElem?_eq_getElem hk2, Option.map_some, Option.some.injEq] at h1
        rw [← h1]
      -- the lengths of the vectors
      have hlens : q.cands.length = la.length + u.length ∧ q.tpl.length = la.length + u.length ∧ q.elv.length = la.length + u.length ∧
          q.alv.length = la.length + u.length := by
        obtain ⟨e0⟩ : Nonempty (Entry K C) := ⟨e⟩
        obtain ⟨f1, f2, f3, f4⟩ := hq (l ++ List.replicate (u.length - k) e0) (by simp; omega) (by rw [List.take_append_of_le_length (by omega), ← hlk, List.take_length])
        have hadd : k + (u.length - k) = u.length := by omega
        refine ⟨?_, ?_, ?_, ?_⟩
        · simpa [hlk, hadd] using f1.1
        · simpa [hlk, hadd] using f2.1
        · simpa [hlk, hadd] using f3.1
        · simpa [hlk, hadd] using f4.1
      obtain ⟨l1, l2, l3, l4⟩ := hlens
      have hbc : Res.at_ b.cands u[k] = .ok (some e.c) := by
        rw [Res.at_eq_ok, hb.cands, List.getElem?_map, hui]; rfl
      have hbe : Res.at_ b.elv u[k] = .ok e.elv := by
        rw [Res.at_eq_ok, hb.elv, List.getElem?_map, hui]; rfl
      have hba : Res.at_ b.alv u[k] = .ok e.alv := by
        rw [Res.at_eq_ok, hb.alv, List.getElem?_map, hui]; rfl
      obtain ⟨x1, hx1⟩ := setElt_total (some e.c) (show la.length + k < q.cands.length by omega)
      obtain ⟨x3, hx3⟩ := setElt_total e.elv (show la.length + k < q.elv.length by omega)
      obtain ⟨x4, hx4⟩ := setElt_total e.alv (show la.length + k < q.alv.length by omega)
      unfold combineStep PassRes.cand
      rw [Res.at_of_lt hk, Res.bind_ok, hbc, Res.bind_ok, hx1, Res.bind_ok, hbe, Res.bind_ok, hx3, Res.bind_ok, hba, Res.bind_ok, hx4,
        Res.bind_ok]
      unfold deref
      simp only [Res.bind_ok]
      by_cases hm : e.c.z ∈ r.redshifts
      · obtain ⟨idx, hi⟩ := getIndex_mem r.redshifts _ hm
        have h1 := (List.getElem?_eq_some_iff.1 (SecondPass.getIndex_ok hi)).1
        have h3 : idx < r.contSol.length := by omega
        obtain ⟨x2, hx2⟩ := setElt_total r.contSol[idx] (show la.length + k < q.tpl.length by omega)
        rw [hi, Res.bind_ok, Res.at_of_lt h3, Res.bind_ok, hx2, Res.bind_ok]
        by_cases hn : name r.contSol[idx] = ""
        · right
          rw [if_pos hn]
          exact ⟨_, rfl, .inr ⟨rfl, e, hemem, idx, _, hi, List.getElem?_eq_getElem h3, hn⟩⟩
        · left
          rw [if_neg hn]
          refine ⟨_, rfl, l ++ [⟨e.c, r.contSol[idx], e.elv, e.alv⟩], ?_, ?_⟩
          · rw [List.take_add_one, List.getElem?_eq_getElem hk2]
            exact List.rel_append hl (.cons ⟨rfl, rfl, rfl, idx, hi, List.getElem?_eq_getElem h3, hn⟩ .nil)
          · intro m hm1 hm2
            have hmk : m[k]? = some ⟨e.c, r.contSol[idx], e.elv, e.alv⟩ := by
              have := congrArg (fun t : List (Entry K C) => t[k]?) hm2
              simp only [List.getElem?_take, Nat.lt_succ_self, if_true] at this
              rw [this, List.getElem?_append_right (by omega), hlk]
              simp
            have hmt : m.take k = l := by
              have := congrArg (List.take k) hm2
              rw [List.take_take, Nat.min_eq_left (by omega), List.take_append_of_le_length (by omega), ← hlk, List.take_length, hlk] at this
              exact this
            obtain ⟨f1, f2, f3, f4⟩ := hq m hm1 hmt
            have hat : ∀ {β : Type} (f : Entry K C → β), ((la ++ m).map f)[la.length + k]? = some (f ⟨e.c, r.contSol[idx], e.elv, e.alv⟩) := by
              intro β f
              rw [List.getElem?_map, List.getElem?_append_right (by omega), Nat.add_sub_cancel_left, hmk]
              rfl
            rw [← Nat.add_assoc]
            refine ⟨?_, ?_, ?_, ?_⟩
            · have := f1.step (hat _)
              rw [hx1, Res.ok.injEq] at this
              rw [this.1]; exact this.2
            · have := f2.step (hat _)
              rw [hx2, Res.ok.injEq] at this
              simp only
              rw [this.1]; exact this.2
            · have := f3.step (hat _)
              rw [hx3, Res.ok.injEq] at this
              simp only
              rw [this.1]; exact this.2
            · have := f4.step (hat _)
              rw [hx4, Res.ok.injEq] at this
              simp only
              rw [this.1]; exact this.2
      · right
        rw [((C08_getIndex r.redshifts e.c.z).2.1).2 hm, Res.bind_throw]
        exact ⟨_, rfl, .inl ⟨rfl, e, hemem, hm⟩⟩)
  rcases key with ⟨q, h1, l, hl, hq⟩ | ⟨e, h1, h2⟩
  · left
    rw [Nat.zero_add, hul, List.take_length] at hl
    have hll : l.length = u.length := by rw [hul, hl.length_eq]
    obtain ⟨f1, f2, f3, f4⟩ := hq l hll (by rw [Nat.zero_add, ← hll, List.take_length])
    refine ⟨q, l, h1, hl, ⟨?_, ?_, ?_, ?_⟩⟩
    · exact f1.done (by simp; omega)
    · exact f2.done (by simp; omega)
    · exact f3.done (by simp; omega)
    · exact f4.done (by simp; omega)
  · right
    rcases h2 with ⟨rfl, h2⟩ | ⟨rfl, h2⟩
    · exact .inl ⟨h1, h2⟩
    · exact .inr ⟨h1, h2⟩

theorem mem_added {thr : K} {la lb : List (Entry K C)} {e : Entry K C} : e ∈ Added thr la lb ↔ e ∈ lb ∧ ¬ Near thr la e := by
  unfold Added
  simp [List.mem_filter]

/-- **C105, what the combination covers.** Nothing is lost: every candidate of either pass is in the result or within the threshold of a
candidate of the first; an appended candidate is at least the threshold away from every candidate of the first pass; and combining again
with the same candidates appends nothing. -/
theorem C105_cover (thr : K) (name : C → String) (c0 : C) (r : LmRes K V S C) (a b : PassRes K C) (la lb : List (Entry K C))
    (ha : Holds a la) (hb : Holds b lb) (hc : r.contSol.length = r.redshifts.length) (hthr : 0 < thr) (q : PassRes K C)
    (hq : combine thr name c0 r a b = .ok q) :
    ∃ l, Holds q (la ++ l) ∧ (∀ e ∈ lb, (∃ e' ∈ la ++ l, e'.c = e.c) ∨ ∃ x ∈ la, |e.c.z - x.c.z| < thr) ∧
      (∀ e ∈ l, (∃ e' ∈ lb, e'.c = e.c) ∧ ∀ x ∈ la, thr ≤ |e.c.z - x.c.z|) ∧ combine thr name c0 r q b = .ok q := by
  rcases C105_combine thr name c0 r a b la lb ha hb hc with ⟨q', l, h1, h2, h3⟩ | ⟨h1, _⟩ | ⟨h1, _⟩
  · rw [hq, Res.ok.injEq] at h1
    subst h1
    have hcover : ∀ e ∈ lb, (∃ e' ∈ la ++ l, e'.c = e.c) ∨ ∃ x ∈ la, |e.c.z - x.c.z| < thr := by
      intro e he
      by_cases hn : Near thr la e
      · exact .inr hn
      · left
        have hm : e ∈ Added thr la lb := mem_added.2 ⟨he, hn⟩
        obtain ⟨i, hi, hie⟩ := List.getElem_of_mem hm
        obtain ⟨e', g1, g2⟩ := forall₂_at h2 i e (by rw [List.getElem?_eq_getElem hi, hie])
        exact ⟨e', List.mem_append_right _ (List.mem_of_getElem? g1), g2.1⟩
    refine ⟨l, h3, hcover, ?_, ?_⟩
    · intro e he
      obtain ⟨i, hi, rfl⟩ := List.getElem_of_mem he
      have hi' : i < (Added thr la lb).length := by rw [h2.length_eq]; exact hi
      obtain ⟨e', g1, g2⟩ := forall₂_at h2 i _ (List.getElem?_eq_getElem hi')
      rw [List.getElem?_eq_getElem hi, Option.some.injEq] at g1
      subst g1
      obtain ⟨m1, m2⟩ := mem_added.1 (List.getElem_mem hi')
      refine ⟨⟨_, m1, g2.1.symm⟩, fun x hx => ?_⟩
      rw [g2.1]
      by_contra hlt
      exact m2 ⟨x, hx, not_le.1 hlt⟩
    · have hempty : Added thr (la ++ l) lb = [] := by
        rw [List.eq_nil_iff_forall_not_mem]
        intro e he
        obtain ⟨m1, m2⟩ := mem_added.1 he
        apply m2
        rcases hcover e m1 with ⟨e', g1, g2⟩ | ⟨x, hx, hlt⟩
        · exact ⟨e', g1, by rw [g2]; simpa using hthr⟩
        · exact ⟨x, List.mem_append_left _ hx, hlt⟩
      rcases C105_combine thr name c0 r q b (la ++ l) lb h3 hb hc with ⟨q', l', k1, k2, k3⟩ | ⟨_, e, he, _⟩ | ⟨_, e, he, _⟩
      · rw [hempty] at k2
        cases k2
        rw [List.append_nil] at k3
        have : q' = q := by
          obtain ⟨a1, a2, a3, a4⟩ := q'
          obtain ⟨b1, b2, b3, b4⟩ := q
          have := k3.cands.trans h3.cands.symm
          have := k3.tpl.trans h3.tpl.symm
          have := k3.elv.trans h3.elv.symm
          have := k3.alv.trans h3.alv.symm
          simp_all
        rw [k1, this]
      · rw [hempty] at he; simp at he
      · rw [hempty] at he; simp at he
  · rw [hq] at h1; simp at h1
  · rw [hq] at h1; simp at h1

/-- **C105, first pass results.** One result per candidate, in order, with the solutions stored at its redshift. -/
theorem C105_first_extrema (r : LmRes K V S C) (p : PassRes K C) (l : List (Entry K C)) (hp : Holds p l)
    (hs : r.lmSol.length = r.redshifts.length) (hc : r.contSol.length = r.redshifts.length) (hz : ∀ e ∈ l, e.c.z ∈ r.redshifts) :
    ∃ out, firstExtrema r p = .ok out ∧ List.Forall₂ (fun (e : Entry K C) (x : ZCand K × S × C) => x.1 = e.c ∧
      ∃ idx, getIndex r.redshifts e.c.z = .ok idx ∧ r.lmSol[idx]? = some x.2.1 ∧ r.contSol[idx]? = some x.2.2) l out := by
  have hlen : p.cands.length = l.length := by rw [hp.cands]; simp
  have hcand : ∀ i (hi : i < l.length), p.cand i = .ok l[i].c := by
    intro i hi
    unfold PassRes.cand
    rw [hp.cands, Res.at_of_lt (by simpa using hi), Res.bind_ok, List.getElem_map]
    rfl
  obtain ⟨out, hl⟩ := forall₂_of_forall (R := fun (e : Entry K C) (x : ZCand K × S × C) => x.1 = e.c ∧
      ∃ idx, getIndex r.redshifts e.c.z = .ok idx ∧ r.lmSol[idx]? = some x.2.1 ∧ r.contSol[idx]? = some x.2.2) l (by
    intro e he
    obtain ⟨e', h1, idx, s, h2, h3, h4, _⟩ := fitOf_exists (fun _ => none) (fun _ => none) r hs hc e.c (hz e he)
    exact ⟨(e.c, s, e'.tpl), rfl, idx, h2, h3, h4⟩)
  refine ⟨out, ?_, hl⟩
  have hol := hl.length_eq
  unfold firstExtrema
  obtain ⟨out', hout⟩ := TplFit.Res.tab_total (g := fun i : Nat => p.cand i >>= fun c => getIndex r.redshifts c.z >>= fun idx =>
      Res.at_ r.lmSol idx >>= fun s => Res.at_ r.contSol idx >>= fun t => (.ok (c, s, t) : Res (ZCand K × S × C))) p.cands.length (by
    intro i hi
    rw [hlen] at hi
    obtain ⟨x, hx, h1, idx, h2, h3, h4⟩ := forall₂_at hl i _ (List.getElem?_eq_getElem hi)
    rw [hcand i hi, Res.bind_ok, h2, Res.bind_ok, Res.at_eq_ok.2 h3, Res.bind_ok, Res.at_eq_ok.2 h4, Res.bind_ok]
    exact ⟨_, rfl⟩)
  rw [hout, Res.ok.injEq]
  have hol' := Res.tab_length _ hout
  apply List.ext_getElem (by omega)
  intro i k1 k2
  obtain ⟨v, v1, v2⟩ := Res.tab_get _ hout i (by omega)
  have hi : i < l.length := by omega
  obtain ⟨x, hx, h1, idx, h2, h3, h4⟩ := forall₂_at hl i _ (List.getElem?_eq_getElem hi)
  rw [hcand i hi, Res.bind_ok, h2, Res.bind_ok, Res.at_eq_ok.2 h3, Res.bind_ok, Res.at_eq_ok.2 h4, Res.bind_ok, Res.ok.injEq] at v2
  rw [List.getElem?_eq_getElem k1, Option.some.injEq] at v1
  rw [List.getElem?_eq_getElem k2, Option.some.injEq] at hx
  rw [v1, ← v2, hx, ← h1]

/-! ### Examples, and what the combination does not do -/

/-- A result on three redshifts; continuum solutions are their names, line solutions their velocities. -/
def exR : LmRes ℚ ℚ ℚ String :=
  ⟨[0, 1 / 10000, 1, 2], [0, 0, 0, 0], [0, 0, 0, 0], [10, 20, 30, 40], ["t0", "t1", "t2", "t3"], [0, 0, 0, 0], [0, 0, 0, 0], [], [], [], [], [], [],
    [], []⟩

/-- Candidate 2 of the first pass; candidates 0, 0.0001, 1 and 2 of the other: the last is a duplicate, the two first are both kept although
they are within the threshold of each other. -/
example : combine (5 / 10000 : ℚ) id "" exR ⟨[some ⟨"FPE0", 2, ""⟩], ["t3"], [some 40], [some 4]⟩
      ⟨[some ⟨"FPB0", 0, ""⟩, some ⟨"FPB1", 1 / 10000, ""⟩, some ⟨"FPB2", 2, ""⟩, some ⟨"FPB3", 1, ""⟩], ["", "", "", ""],
        [some 1, some 2, some 3, none], [some 5, some 6, some 7, some 8]⟩ =
    .ok ⟨[some ⟨"FPE0", 2, ""⟩, some ⟨"FPB0", 0, ""⟩, some ⟨"FPB1", 1 / 10000, ""⟩, some ⟨"FPB3", 1, ""⟩], ["t3", "t0", "t1", "t2"],
      [some 40, some 1, some 2, none], [some 4, some 5, some 6, some 8]⟩ := by decide +kernel

example : Holds (⟨[some ⟨"FPE0", 2, ""⟩], ["t3"], [some 40], [some 4]⟩ : PassRes ℚ String) [⟨⟨"FPE0", 2, ""⟩, "t3", some 40, some 4⟩] :=
  ⟨rfl, rfl, rfl, rfl⟩

example : setFirst (fun v : ℚ => some v) (fun v => some (v / 10)) "" exR [⟨"FPE0", 2, ""⟩, ⟨"FPE1", 0, ""⟩] ⟨[none, none, none], ["", "", ""], [none, none, none], []⟩ =
    .ok ⟨[some ⟨"FPE0", 2, ""⟩, some ⟨"FPE1", 0, ""⟩], ["t3", "t0"], [some 40, some 10], [some 4, some 1]⟩ := by decide +kernel

end LmCands
end Amazed
