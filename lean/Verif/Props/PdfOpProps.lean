import Verif.Model.PdfOp
import Verif.Props.ExtremumProps
import Verif.Props.CandidatesProba
import Verif.Props.PdfzCombine
import Verif.Props.LineCatProps

set_option linter.unusedVariables false
set_option linter.unusedSectionVars false

/-! # C140: the candidates of the redshift PDF -/

namespace Amazed
namespace PdfOp
open LineCat (mapPut mapFind Keyed mapPut_keyed mapFind_mem)
open Pdfz (Grid Trapz)

/-! ## Identifiers -/

/-- A word that ends with an underscore cannot be inserted before `p` and be compensated by a shorter number. -/
theorem no_shift (i j : Nat) : ∀ (n : Nat) (p w : List Char), p.length ≤ n → w.getLast? = some '_' →
    p ++ Nat.toDigits 10 i ≠ w ++ (p ++ Nat.toDigits 10 j) := by
  intro n
  induction n with
  | zero =>
    intro p w hp hw h
    have : p = [] := List.eq_nil_of_length_eq_zero (by omega)
    subst this
    simp only [List.nil_append] at h
    have : '_' ∈ Nat.toDigits 10 i := by rw [h]; exact List.mem_append_left _ (List.mem_of_getLast? hw)
    exact Nat.underscore_not_in_toDigits this
  | succ n ih =>
    intro p w hp hw h
    have hwne : w ≠ [] := by rintro rfl; simp at hw
    have hwl : 0 < w.length := List.length_pos_iff.2 hwne
    rcases le_or_gt w.length p.length with hl | hl
    · have hpre : w <+: p := by
        have : w <+: p ++ Nat.toDigits 10 i := by rw [h]; exact List.prefix_append _ _
        exact List.prefix_of_prefix_length_le this (List.prefix_append _ _) hl
      obtain ⟨q, rfl⟩ := hpre
      rw [List.append_assoc, List.append_cancel_left_eq] at h
      exact ih q w (by simp at hp; omega) hw (by rw [h, List.append_assoc])
    · have hpre : p <+: w := by
        have : p <+: w ++ (p ++ Nat.toDigits 10 j) := by rw [← h]; exact List.prefix_append _ _
        exact List.prefix_of_prefix_length_le this (List.prefix_append _ _) hl.le
      obtain ⟨q, rfl⟩ := hpre
      have hq : q ≠ [] := by rintro rfl; simp at hl
      rw [List.append_assoc, List.append_cancel_left_eq] at h
      have : '_' ∈ Nat.toDigits 10 i := by
        rw [h]
        apply List.mem_append_left
        rw [List.getLast?_append_of_ne_nil _ hq] at hw
        exact List.mem_of_getLast? hw
      exact Nat.underscore_not_in_toDigits this

theorem digits_inj {i j : Nat} (h : Nat.toDigits 10 i = Nat.toDigits 10 j) : i = j := by
  rw [← Nat.ofDigitChars_ten_toDigits (n := i), h, Nat.ofDigitChars_ten_toDigits]

/-- The part of the identifier before the prefix. -/
def headOf (id : String) : List Char := if id = "" then [] else id.toList ++ ['_']

theorem prefixOf_toList (pre id : String) (i : Nat) : (prefixOf pre id ++ toString i).toList = headOf id ++ (pre.toList ++ Nat.toDigits 10 i) := by
  have h2 : (toString i).toList = Nat.toDigits 10 i := by rw [Nat.toString_eq_repr, Nat.toList_repr]
  unfold prefixOf headOf
  split_ifs with h
  · rw [String.toList_append, h2]; rfl
  · rw [String.toList_append, String.toList_append, String.toList_append, h2]
    have : "_".toList = ['_'] := rfl
    rw [this]
    simp

theorem headOf_last {id : String} : headOf id = [] ∨ (headOf id).getLast? = some '_' := by
  unfold headOf
  split_ifs <;> simp

/-- Identifiers of distinct peaks are distinct, for every prefix and all parent identifiers. -/
theorem id_inj {pre a b : String} {i j : Nat} (h : prefixOf pre a ++ toString i = prefixOf pre b ++ toString j) : a = b ∧ i = j := by
  have h' := congrArg String.toList h
  rw [prefixOf_toList, prefixOf_toList] at h'
  have key : ∀ {x y : String} {k l : Nat}, (headOf x).length < (headOf y).length → headOf x ++ (pre.toList ++ Nat.toDigits 10 k) ≠ headOf y ++ (pre.toList ++ Nat.toDigits 10 l) := by
    intro x y k l hl he
    have hp : headOf x <+: headOf y := by
      have : headOf x <+: headOf y ++ (pre.toList ++ Nat.toDigits 10 l) := by rw [← he]; exact List.prefix_append _ _
      exact List.prefix_of_prefix_length_le this (List.prefix_append _ _) hl.le
    obtain ⟨w, hw⟩ := hp
    have hwne : w ≠ [] := by rintro rfl; rw [← hw] at hl; simp at hl
    rw [← hw, List.append_assoc, List.append_cancel_left_eq] at he
    refine no_shift k l _ pre.toList w le_rfl ?_ he
    rcases headOf_last (id := y) with h0 | h0
    · rw [h0] at hl; simp at hl
    · rw [← hw, List.getLast?_append_of_ne_nil _ hwne] at h0
      exact h0
  rcases lt_trichotomy (headOf a).length (headOf b).length with hl | hl | hl
  · exact absurd h' (key hl)
  · obtain ⟨e1, e2⟩ := List.append_inj h' hl
    have e3 := digits_inj (List.append_cancel_left e2)
    refine ⟨?_, e3⟩
    unfold headOf at e1
    by_cases ha : a = ""
    · by_cases hb : b = ""
      · rw [ha, hb]
      · rw [if_pos ha, if_neg hb] at e1; simp at e1
    · by_cases hb : b = ""
      · rw [if_neg ha, if_pos hb] at e1; simp at e1
      · rw [if_neg ha, if_neg hb] at e1
        exact String.toList_inj.1 (List.append_cancel_right e1)
  · exact absurd h'.symm (key hl)

/-! ## The search -/

/-- The candidates which are expected: the peak number `i` of each window, under the identifier made of the parent, the prefix and `i`. -/
noncomputable def entriesOf (pre : String) (id : String) (pts : List (ℝ × Option ℝ)) (k : Nat) : List (String × Found) :=
  (pts.zipIdx k).map fun q => (prefixOf pre id ++ toString q.2, ⟨q.1.1, q.1.2, id⟩)

theorem mapPut_perm {V : Type} (k : String) (v : V) : ∀ (m : List (String × V)), (∀ x ∈ m, x.1 ≠ k) → (mapPut k v m).Perm ((k, v) :: m) := by
  intro m
  induction m with
  | nil => intro _; exact List.Perm.refl _
  | cons x xs ih =>
    obtain ⟨k', w⟩ := x
    intro h
    unfold mapPut
    split_ifs with h1 h2
    · exact List.Perm.refl _
    · exact absurd h2.symm (h (k', w) (by simp))
    · exact ((ih fun y hy => h y (by simp [hy])).cons _).trans (List.Perm.swap _ _ _)

theorem putPeaks_spec (pre id : String) : ∀ (pts : List (ℝ × Option ℝ)) (k : Nat) (m : List (String × Found)), Keyed m →
    (∀ x ∈ m, ∀ i : Nat, k ≤ i → x.1 ≠ prefixOf pre id ++ toString i) →
    Keyed (putPeaks id (prefixOf pre id) k pts m) ∧ (putPeaks id (prefixOf pre id) k pts m).Perm (entriesOf pre id pts k ++ m) := by
  intro pts
  induction pts with
  | nil => intro k m h _; exact ⟨h, by simp [entriesOf, putPeaks]⟩
  | cons p ps ih =>
    intro k m hk hn
    have hp := mapPut_perm (prefixOf pre id ++ toString k) (⟨p.1, p.2, id⟩ : Found) m (fun x hx => hn x hx k le_rfl)
    obtain ⟨r1, r2⟩ := ih (k + 1) _ (mapPut_keyed _ _ _ hk) (by
      intro x hx i hi
      rcases List.mem_cons.1 (hp.mem_iff.1 hx) with rfl | hx
      · intro he
        have := (id_inj he).2
        omega
      · exact hn x hx i (by omega))
    refine ⟨r1, r2.trans ?_⟩
    refine ((hp.append_left _).trans ?_)
    unfold entriesOf
    rw [List.zipIdx_cons, List.map_cons, List.cons_append]
    exact List.perm_middle

theorem searchLoop_spec {c : Cfg} {sorter : List (Option ℝ) → List Nat} {zs logp : List ℝ} {single : Bool} :
    ∀ (ws : List (String × Range ℝ)) (m r : List (String × Found)), searchLoop c sorter zs logp single ws m = .ok r → Keyed m →
    (ws.map Prod.fst).Nodup → (∀ x ∈ m, ∀ w ∈ ws, ∀ i : Nat, x.1 ≠ prefixOf c.pre w.1 ++ toString i) →
    ∃ ps : List (List (ℝ × Option ℝ)), List.Forall₂ (fun w p => Extremum.find (c.ext w.2) sorter zs (logp.map some) single = .ok p) ws ps ∧
      Keyed r ∧ r.Perm ((List.zipWith (fun (w : String × Range ℝ) p => entriesOf c.pre w.1 p 0) ws ps).flatten ++ m) := by
  intro ws
  induction ws with
  | nil =>
    intro m r h hk _ _
    unfold searchLoop at h
    cases h
    exact ⟨[], .nil, hk, by simp⟩
  | cons w ws ih =>
    intro m r h hk hnd hn
    unfold searchLoop at h
    obtain ⟨pts, h1, h2⟩ := Res.bind_eq_ok.1 h
    obtain ⟨p1, p2⟩ := putPeaks_spec c.pre w.1 pts 0 m hk (fun x hx i _ => hn x hx w (by simp) i)
    rw [List.map_cons, List.nodup_cons] at hnd
    obtain ⟨ps, q1, q2, q3⟩ := ih _ r h2 p1 hnd.2 (by
      intro x hx v hv i
      rcases List.mem_append.1 (p2.mem_iff.1 hx) with hx | hx
      · unfold entriesOf at hx
        obtain ⟨q, -, rfl⟩ := List.mem_map.1 hx
        intro he
        exact hnd.1 (by rw [(id_inj he).1]; exact List.mem_map_of_mem hv)
      · exact hn x hx v (by simp [hv]) i)
    refine ⟨pts :: ps, .cons h1 q1, q2, q3.trans ?_⟩
    rw [List.zipWith_cons_cons, List.flatten_cons]
    refine (p2.append_left _).trans ?_
    rw [← List.append_assoc]
    exact List.Perm.append_right _ List.perm_append_comm

/-- The windows are searched under distinct identifiers. -/
theorem windows_nodup (ids : List String) (rs : List (Range ℝ)) : ((windows ids rs).map Prod.fst).Nodup := by
  unfold windows
  split_ifs
  · simp
  · have : ∀ (l : List (String × Range ℝ)) (m : List (String × Range ℝ)), Keyed m → Keyed (l.foldl (fun m p => mapPut p.1 p.2 m) m) := by
      intro l
      induction l with
      | nil => intro m h; exact h
      | cons x xs ih => intro m h; exact ih _ (mapPut_keyed _ _ _ h)
    have hk := this (ids.zip rs) [] List.Pairwise.nil
    exact (List.pairwise_map.2 hk).imp fun h => ne_of_lt h

/-- **C140** The candidates found in a PDF: for every window (the whole grid in the first pass), every peak that the search returns in it, no more
and no less, each under its own identifier (the parent identifier, the prefix and its number in the window), with the parent it comes from. There
is an error when no window has a peak. -/
theorem C140_search {c : Cfg} {sorter : List (Option ℝ) → List Nat} {zs logp : List ℝ} {ws : List (String × Range ℝ)} {m : List (String × Found)}
    (hws : (ws.map Prod.fst).Nodup) (h : search c sorter zs logp ws = .ok m) :
    ∃ ps : List (List (ℝ × Option ℝ)), List.Forall₂ (fun w p => Extremum.find (c.ext w.2) sorter zs (logp.map some) (ws.length == 1) = .ok p) ws ps ∧
      m.Perm (List.zipWith (fun (w : String × Range ℝ) p => entriesOf c.pre w.1 p 0) ws ps).flatten ∧ (m.map Prod.fst).Nodup ∧ m ≠ [] := by
  unfold search at h
  obtain ⟨r, h1, h2⟩ := Res.bind_eq_ok.1 h
  obtain ⟨ps, p1, p2, p3⟩ := searchLoop_spec ws [] r h1 List.Pairwise.nil hws (by simp)
  split_ifs at h2 with h0
  cases h2
  refine ⟨ps, p1, by simpa using p3, (List.pairwise_map.2 p2).imp fun h => ne_of_lt h, ?_⟩
  intro he
  exact h0 (by rw [he]; rfl)

theorem combine_length {opt : String} {a : Pdfz.ChisquareArray} {p : List ℝ} (h : Pdfz.combinePdf opt a = .ok p) : p.length = a.redshifts.length := by
  unfold Pdfz.combinePdf at h
  split_ifs at h with h0
  all_goals
    obtain ⟨v, -, h2⟩ := Res.bind_eq_ok.1 h
    obtain ⟨u, h3, h4⟩ := Res.bind_eq_ok.1 h2
    cases h4
    unfold Pdfz.isPdfValid at h3
    split_ifs at h3 with h5
    cases p with
    | nil => cases h3
    | cons x xs =>
      simp only at h3
      split_ifs at h3 with h6
      obtain ⟨s, h7, -⟩ := Res.bind_eq_ok.1 h3
      unfold Pdfz.sumTrapez at h7
      by_contra hc
      rw [if_pos hc] at h7
      cases h7

theorem filterMap_out {m : List (String × Found)} (hk : Keyed m) : ∀ (r : List ((String × ℝ) × Nat)), (∀ x ∈ r, x.1.1 ∈ m.map Prod.fst) →
    List.Forall₂ (fun (x : (String × ℝ) × Nat) (o : Out) => o.id = x.1.1 ∧ o.proba = x.1.2 ∧ o.rank = x.2 ∧ ∃ v, (o.id, ⟨o.z, v, o.parent⟩) ∈ m) r (r.filterMap (outOf m)) := by
  intro r
  induction r with
  | nil => intro _; exact .nil
  | cons x xs ih =>
    intro h
    obtain ⟨y, hy, hyx⟩ := List.mem_map.1 (h x (by simp))
    have hf : mapFind x.1.1 m = some y.2 := (mapFind_mem hk _ _).2 (by rw [← hyx]; exact hy)
    have : outOf m x = some ⟨x.1.1, y.2.z, y.2.parent, x.1.2, x.2⟩ := by unfold outOf; rw [hf]; rfl
    rw [List.filterMap_cons_some this]
    refine .cons ⟨rfl, rfl, rfl, y.2.val, ?_⟩ (ih fun q hq => h q (by simp [hq]))
    show (x.1.1, y.2) ∈ m
    rw [← hyx]; exact hy

theorem forall₂_map_eq {A B C : Type} {R : A → B → Prop} {f : A → C} {g : B → C} (h : ∀ a b, R a b → g b = f a) :
    ∀ {l : List A} {l' : List B}, List.Forall₂ R l l' → l'.map g = l.map f := by
  intro l l' hl
  induction hl with
  | nil => rfl
  | cons h1 _ ih => rw [List.map_cons, List.map_cons, h _ _ h1, ih]

theorem search_keyed {c : Cfg} {sorter : List (Option ℝ) → List Nat} {zs logp : List ℝ} {ws : List (String × Range ℝ)} {m : List (String × Found)}
    (hws : (ws.map Prod.fst).Nodup) (h : search c sorter zs logp ws = .ok m) : Keyed m := by
  unfold search at h
  obtain ⟨r, h1, h2⟩ := Res.bind_eq_ok.1 h
  obtain ⟨ps, p1, p2, p3⟩ := searchLoop_spec ws [] r h1 List.Pairwise.nil hws (by simp)
  split_ifs at h2 with h0
  cases h2
  exact p2

/-- **C140** When the PDF is combined and a peak is found, the operator ends without error, for every order that the sorts give to equal values, and
the result is: at least one candidate and at most the requested number (all the peaks if that number is negative); distinct identifiers; ranks 0, 1,
...; integrated probabilities in decreasing order, between 0 and the integral of the PDF, the first one positive; and the redshift of each candidate
is a point of the grid, a peak found in the window of its parent, and inside that window. -/
theorem C140_candidates {c : Cfg} {sorter : List (Option ℝ) → List Nat} {zsorter : List (Candidates.Cand ℝ) → List (Candidates.Cand ℝ)}
    {a : Pdfz.ChisquareArray} {ids : List String} {rs : List (Range ℝ)} {p : List ℝ} {m : List (String × Found)}
    (hsort : ∀ l, (zsorter l).Perm l) (hlen : rs.length = ids.length) (hz : Grid a.redshifts) (hmax : c.maxCand ≠ 0)
    (hp : Pdfz.combinePdf c.opt a = .ok p) (hm : search c sorter a.redshifts p (windows ids rs) = .ok m) :
    ∃ out, compute c sorter zsorter (.ok a.redshifts) a ids rs = .ok out ∧
      out.length = (if c.maxCand < 0 then m.length else min c.maxCand.toNat m.length) ∧ out ≠ [] ∧
      (out.map Out.id).Nodup ∧ out.map Out.rank = List.range out.length ∧ out.Pairwise (fun x y => y.proba ≤ x.proba) ∧
      (∀ o ∈ out, 0 ≤ o.proba ∧ o.proba ≤ Trapz a.redshifts (p.map Real.exp)) ∧ (∃ o, out.head? = some o ∧ 0 < o.proba) ∧
      ∀ o ∈ out, o.z ∈ a.redshifts ∧ ∃ w ∈ windows ids rs, o.parent = w.1 ∧ (w.2.b ≠ w.2.e → w.2.Mem o.z) ∧
        ∃ pts v, Extremum.find (c.ext w.2) sorter a.redshifts (p.map some) ((windows ids rs).length == 1) = .ok pts ∧ (o.z, v) ∈ pts := by
  have hnd := windows_nodup ids rs
  obtain ⟨ps, q1, q2, q3, q4⟩ := C140_search hnd hm
  have hk := search_keyed hnd hm
  have hwin : ∀ x ∈ m, x.2.z ∈ a.redshifts ∧ ∃ w ∈ windows ids rs, x.2.parent = w.1 ∧ (w.2.b ≠ w.2.e → w.2.Mem x.2.z) ∧
        ∃ pts v, Extremum.find (c.ext w.2) sorter a.redshifts (p.map some) ((windows ids rs).length == 1) = .ok pts ∧ (x.2.z, v) ∈ pts := by
    intro x hx
    have hx' := q2.mem_iff.1 hx
    obtain ⟨l, hl, hxl⟩ := List.mem_flatten.1 hx'
    obtain ⟨i, hi, rfl⟩ := List.getElem_of_mem hl
    rw [List.getElem_zipWith] at hxl
    have hi1 : i < (windows ids rs).length := by rw [List.length_zipWith] at hi; omega
    have hi2 : i < ps.length := by rw [List.length_zipWith] at hi; omega
    have hf := q1.get hi1 hi2
    simp only [List.get_eq_getElem] at hf
    unfold entriesOf at hxl
    obtain ⟨t, ht, rfl⟩ := List.mem_map.1 hxl
    have ht' : t.1 ∈ ps[i] := by
      obtain ⟨-, -, h3⟩ := List.mem_zipIdx ht
      rw [h3]; exact List.getElem_mem _
    obtain ⟨k, g1, g2, g3⟩ := Extremum.C19_reported_points_are_samples _ _ _ _ _ _ hz.incr hf _ ht'
    exact ⟨List.mem_of_getElem? g1, _, List.getElem_mem hi1, rfl, g3, _, _, hf, ht'⟩
  obtain ⟨r, h1, h2, h3, h4, h5, h6, h7, h8⟩ := Candidates.C46_candidates_any zsorter c.maxCand a.redshifts p (m.map fun x => (x.1, x.2.z, x.2.val.getD 0))
    hsort hz (combine_length hp) (by simpa using q4) (by rw [List.map_map]; exact q3)
    (by
      intro y hy
      obtain ⟨x, hx, rfl⟩ := List.mem_map.1 hy
      exact (hwin x hx).1) hmax
  have hF := filterMap_out hk r (by
    intro x hx
    have := h4 x hx
    rw [List.map_map] at this
    exact this)
  have e1 : (r.filterMap (outOf m)).map Out.id = r.map (fun x => x.1.1) := forall₂_map_eq (fun x o h => h.1) hF
  have e2 : (r.filterMap (outOf m)).map Out.rank = r.map Prod.snd := forall₂_map_eq (fun x o h => h.2.2.1) hF
  have e3 : (r.filterMap (outOf m)).map Out.proba = r.map (fun x => x.1.2) := forall₂_map_eq (fun x o h => h.2.1) hF
  have hlr : (r.filterMap (outOf m)).length = r.length := hF.length_eq.symm
  have hin : ∀ o ∈ r.filterMap (outOf m), ∃ x ∈ r, o.proba = x.1.2 ∧ ∃ v, (o.id, (⟨o.z, v, o.parent⟩ : Found)) ∈ m := by
    intro o ho
    obtain ⟨i, hi, rfl⟩ := List.getElem_of_mem ho
    have hi' : i < r.length := by rw [← hlr]; exact hi
    have := hF.get hi' hi
    simp only [List.get_eq_getElem] at this
    exact ⟨r[i], List.getElem_mem hi', this.2.1, this.2.2.2⟩
  refine ⟨r.filterMap (outOf m), ?_, ?_, ?_, ?_, ?_, ?_, ?_, ?_, ?_⟩
  · unfold compute
    rw [if_neg (not_not.2 hlen), Res.bind_ok, if_neg (not_not.2 rfl), hp, Res.bind_ok, hm, Res.bind_ok, h1, Res.bind_ok]
  · rw [hlr, h2, List.length_map]
  · obtain ⟨x, hx, -⟩ := h8
    intro he
    have : r.length = 0 := by rw [← hlr, he]; rfl
    rw [List.eq_nil_of_length_eq_zero this] at hx
    cases hx
  · rw [e1]; exact h3
  · rw [e2, h5, hlr]
  · have h9 : (r.map (fun x => x.1.2)).Pairwise (fun x y => y ≤ x) := List.pairwise_map.2 h6
    rw [← e3] at h9
    exact List.pairwise_map.1 h9
  · intro o ho
    obtain ⟨x, hx, h9, -⟩ := hin o ho
    rw [h9]; exact h7 x hx
  · obtain ⟨x, hx, h9⟩ := h8
    have hh := congrArg List.head? e3
    rw [List.head?_map, List.head?_map, hx, Option.map_some] at hh
    obtain ⟨o, ho, h10⟩ := Option.map_eq_some_iff.1 hh
    exact ⟨o, ho, by rw [h10]; exact h9⟩
  · intro o ho
    obtain ⟨x, -, -, v, hv⟩ := hin o ho
    exact hwin _ hv

/-- **C140** The requests which are refused: another number of windows than of parents, a grid that is not the one of the merits; and the errors of
the combination and of the search are passed on. -/
theorem C140_refused {c : Cfg} {sorter : List (Option ℝ) → List Nat} {zsorter : List (Candidates.Cand ℝ) → List (Candidates.Cand ℝ)}
    {a : Pdfz.ChisquareArray} {ids : List String} {rs : List (Range ℝ)} {g : List ℝ} :
    (rs.length ≠ ids.length → compute c sorter zsorter (.ok g) a ids rs = .throw .INTERNAL_ERROR) ∧
    (g ≠ a.redshifts → compute c sorter zsorter (.ok g) a ids rs = .throw .INTERNAL_ERROR) ∧
    (rs.length = ids.length → g = a.redshifts → ∀ e, Pdfz.combinePdf c.opt a = .throw e → compute c sorter zsorter (.ok g) a ids rs = .throw e) ∧
    (rs.length = ids.length → g = a.redshifts → ∀ p e, Pdfz.combinePdf c.opt a = .ok p → search c sorter a.redshifts p (windows ids rs) = .throw e →
      compute c sorter zsorter (.ok g) a ids rs = .throw e) ∧
    ∀ p, (∀ w ∈ windows ids rs, Extremum.find (c.ext w.2) sorter a.redshifts (p.map some) ((windows ids rs).length == 1) = .ok []) →
      search c sorter a.redshifts p (windows ids rs) = .throw .PDF_PEAK_NOT_FOUND := by
  refine ⟨?_, ?_, ?_, ?_, ?_⟩
  · intro h; unfold compute; rw [if_pos h]
  · intro h
    unfold compute
    by_cases h1 : rs.length ≠ ids.length
    · rw [if_pos h1]
    · rw [if_neg h1, Res.bind_ok, if_pos h]
  · intro h h1 e h2
    unfold compute
    rw [if_neg (not_not.2 h), Res.bind_ok, if_neg (not_not.2 h1), h2, Res.bind_throw]
  · intro h h1 p e h2 h3
    unfold compute
    rw [if_neg (not_not.2 h), Res.bind_ok, if_neg (not_not.2 h1), h2, Res.bind_ok, h3, Res.bind_throw]
  · intro p h
    have key : ∀ (ws : List (String × Range ℝ)) (s : Bool) (m : List (String × Found)),
        (∀ w ∈ ws, Extremum.find (c.ext w.2) sorter a.redshifts (p.map some) s = .ok []) → searchLoop c sorter a.redshifts p s ws m = .ok m := by
      intro ws s
      induction ws with
      | nil => intro m _; rfl
      | cons w ws ih =>
        intro m hw
        unfold searchLoop
        rw [hw w (by simp), Res.bind_ok]
        exact ih _ fun v hv => hw v (by simp [hv])
    unfold search
    rw [key _ _ _ h, Res.bind_ok]; rfl

/-- **C140** In the first pass (no parents), there is one window: without parent, and without bounds, so that its peaks are the ones of the whole grid. -/
theorem C140_first_pass {c : Cfg} {sorter : List (Option ℝ) → List Nat} {zs logp : List ℝ} {m : List (String × Found)}
    (h : search c sorter zs logp (windows [] []) = .ok m) :
    windows [] [] = [("", ⟨0, 0⟩)] ∧ ∃ p, Extremum.find (c.ext ⟨0, 0⟩) sorter zs (logp.map some) true = .ok p ∧ m.length = p.length ∧
      ∀ x ∈ m, x.2.parent = "" ∧ ∃ v, (x.2.z, v) ∈ p := by
  have hw : windows [] [] = [("", ⟨0, 0⟩)] := by unfold windows; rw [if_pos rfl]
  rw [hw] at h
  obtain ⟨ps, q1, q2, -, -⟩ := C140_search (by simp) h
  cases q1 with
  | cons hf hn =>
    cases hn
    rename_i p
    refine ⟨hw, p, hf, ?_, fun x hx => ?_⟩
    · rw [q2.length_eq]; simp [entriesOf]
    · have := q2.mem_iff.1 hx
      simp only [List.zipWith_cons_cons, List.zipWith_nil_right, List.flatten_cons, List.flatten_nil, List.append_nil] at this
      unfold entriesOf at this
      obtain ⟨t, ht, rfl⟩ := List.mem_map.1 this
      refine ⟨rfl, t.1.2, ?_⟩
      obtain ⟨-, -, h3⟩ := List.mem_zipIdx ht
      simp only [Nat.sub_zero] at h3
      show (t.1.1, t.1.2) ∈ p
      rw [show (t.1.1, t.1.2) = t.1 from rfl, h3]
      exact List.getElem_mem _

/-- In the second pass, with parents of distinct identifiers, there is one window per parent: its own range. -/
theorem C140_windows {ids : List String} {rs : List (Range ℝ)} (hne : ids ≠ []) (hnd : ids.Nodup) (hl : rs.length = ids.length) :
    (∀ x, x ∈ windows ids rs ↔ x ∈ ids.zip rs) ∧ (windows ids rs).length = ids.length := by
  have key : ∀ (l : List (String × Range ℝ)) (m : List (String × Range ℝ)), (l.map Prod.fst).Nodup → (∀ x ∈ m, ∀ y ∈ l, x.1 ≠ y.1) →
      (l.foldl (fun m p => mapPut p.1 p.2 m) m).Perm (l ++ m) := by
    intro l
    induction l with
    | nil => intro m _ _; exact List.Perm.refl _
    | cons a as ih =>
      intro m h1 h2
      rw [List.map_cons, List.nodup_cons] at h1
      have hp := mapPut_perm a.1 a.2 m (fun x hx => h2 x hx a (by simp))
      refine (ih _ h1.2 ?_).trans (((hp.append_left as)).trans List.perm_middle)
      intro x hx y hy
      rcases List.mem_cons.1 (hp.mem_iff.1 hx) with rfl | hx
      · intro he
        exact h1.1 (by rw [he]; exact List.mem_map_of_mem hy)
      · exact h2 x hx y (by simp [hy])
  unfold windows
  rw [if_neg hne]
  have hp := key (ids.zip rs) [] (by rw [List.map_fst_zip (by omega)]; exact hnd) (by simp)
  rw [List.append_nil] at hp
  exact ⟨fun x => hp.mem_iff, by rw [hp.length_eq, List.length_zip]; omega⟩

/-! ## Examples -/

/-- The operator of the template fitting, with at most five candidates. -/
def exCfg : Cfg := ⟨"bestChi2", 0, 0, 5, true, 0, "EXT"⟩

theorem exFind {a b c : ℝ} (h1 : a < b) (h2 : c < b) :
    Extremum.find (exCfg.ext ⟨0, 0⟩) (fun l => List.range l.length) [0, 1, 3] ([a, b, c].map some) true = .ok [(1, some b)] := by
  simp [exCfg, Extremum.find, Cfg.ext, Cfg.perWindow, Extremum.searchIdx, Range.isEmpty, Extremum.sgn, Extremum.findAllPeaks, Extremum.trimNaN,
    Extremum.skipFwd, Extremum.skipBwd, Extremum.scanLoop, Extremum.scanFirst, Extremum.scanLast, Extremum.scanStep, Extremum.ltv, Extremum.eqv, h1, h2,
    Extremum.readPeaks, Extremum.select, Extremum.cutStage, Extremum.truncate, Extremum.pickSorted, Res.at_, not_lt.2 h1.le, ne_of_lt h1]

theorem exCombine : ∃ a b c : ℝ, a < b ∧ c < b ∧ Pdfz.combinePdf "bestChi2" (Pdfz.arrayOf [0, 1, 3] 5 [⟨[10, 2, 30], [0, 0, 0], 1⟩]) = .ok [a, b, c] := by
  have hz : Grid [0, 1, 3] := ⟨by simp, by simp [List.pairwise_cons]⟩
  have hv : Pdfz.ValidTpls [0, 1, 3] [⟨[10, 2, 30], [0, 0, 0], 1⟩] :=
    { ne := by simp, chi2 := by simp, zprior := by simp, pos := by simp, sum := by norm_num }
  obtain ⟨⟨v, ev⟩, h1, h2, h3, h4, h5⟩ := Pdfz.C44_best_chi2 [0, 1, 3] 5 [⟨[10, 2, 30], [0, 0, 0], 1⟩] hz hv
  have hbig : (1e11 : ℝ) ≤ Pdfz.dblMax + 1 := by
    unfold Pdfz.dblMax
    have h : (1 : ℝ) ≤ (2 : ℝ) ^ 971 := one_le_pow₀ (by norm_num)
    have h' : (2 ^ 53 - 1 : ℝ) * 1 ≤ (2 ^ 53 - 1) * 2 ^ 971 := mul_le_mul_of_nonneg_left h (by norm_num)
    have h'' : (1e11 : ℝ) ≤ (2 ^ 53 - 1 : ℝ) * 1 := by norm_num
    exact le_trans h'' (le_trans h' (le_add_of_nonneg_right zero_le_one))
  have hmin : (List.range [(0 : ℝ), 1, 3].length).map (Pdfz.minChi2 [⟨[10, 2, 30], [0, 0, 0], 1⟩]) = [10, 2, 30] := by
    simp [Pdfz.minChi2, List.range_succ]
    refine ⟨?_, ?_, ?_⟩ <;> linarith
  rw [hmin] at h2
  obtain ⟨a, b, c, rfl⟩ : ∃ a b c : ℝ, v = [a, b, c] := by
    match v, h3 with
    | [a, b, c], _ => exact ⟨a, b, c, rfl⟩
  have o1 := (Pdfz.C25_order [10, 2, 30] [0, 1, 3] [0, 0, 0] _ _ _ hz rfl rfl h2 1 0 (by simp) (by simp) (by simp)).1 (by norm_num)
  have o2 := (Pdfz.C25_order [10, 2, 30] [0, 1, 3] [0, 0, 0] _ _ _ hz rfl rfl h2 1 2 (by simp) (by simp) (by simp)).1 (by norm_num)
  simp at o1 o2
  refine ⟨a, b, c, o1, o2, ?_⟩
  rcases h5 with h5 | h5
  · exact h5
  · exfalso
    unfold Pdfz.combinePdf at h5
    rw [if_neg (by simp [Pdfz.arrayOf]), if_neg (by decide), if_pos rfl, h1, Res.bind_ok, Res.bind_ok] at h5
    have hok : Pdfz.isPdfValid [a, b, c] [0, 1, 3] = .ok () := by
      refine (Pdfz.C24_check [a, b, c] _ hz rfl).2.2 ⟨⟨a, by simp, b, by simp, ne_of_lt o1⟩, ?_⟩
      simp only at h4
      rw [h4]; norm_num
    rw [show (Pdfz.arrayOf [0, 1, 3] 5 [⟨[10, 2, 30], [0, 0, 0], 1⟩]).redshifts = [0, 1, 3] from rfl] at h5
    simp only at h5
    rw [hok, Res.bind_ok] at h5
    cases h5

-- The hypotheses of `C140_candidates` hold for the first pass with one template on three redshifts; the only candidate is the middle one.
example : ∃ out, compute exCfg (fun l => List.range l.length) id (.ok [0, 1, 3]) (Pdfz.arrayOf [0, 1, 3] 5 [⟨[10, 2, 30], [0, 0, 0], 1⟩]) [] [] = .ok out ∧
    out.map Out.z = [1] ∧ out.map Out.id = ["EXT0"] := by
  obtain ⟨a, b, c, h1, h2, h3⟩ := exCombine
  have hf := exFind h1 h2
  have hs : search exCfg (fun l => List.range l.length) [0, 1, 3] [a, b, c] (windows [] []) = .ok [("EXT0", ⟨1, some b, ""⟩)] := by
    unfold search windows
    rw [if_pos rfl]
    unfold searchLoop
    rw [show ([("", (⟨0, 0⟩ : Range ℝ))].length == 1) = true from rfl]
    simp only
    rw [hf, Res.bind_ok]
    simp only [searchLoop, putPeaks, mapPut, prefixOf, Res.bind_ok, if_true]
    rfl
  obtain ⟨out, o1, o2, o3, o4, o5, o6, o7, o8, o9⟩ := C140_candidates (c := exCfg) (sorter := fun l => List.range l.length) (zsorter := id)
    (a := Pdfz.arrayOf [0, 1, 3] 5 [⟨[10, 2, 30], [0, 0, 0], 1⟩]) (ids := []) (rs := []) (fun l => List.Perm.refl _) rfl
    ⟨by simp [Pdfz.arrayOf], by simp [Pdfz.arrayOf, List.pairwise_cons]⟩ (by decide) h3 hs
  refine ⟨out, o1, ?_⟩
  have hl : out.length = 1 := by rw [o2]; rfl
  match out, hl with
  | [o], _ =>
    obtain ⟨-, w, hw, hp, -, pts, v, hpts, hmem⟩ := o9 o (by simp)
    have hw' : w = ("", ⟨0, 0⟩) := by simpa [windows] using hw
    subst hw'
    have : pts = [(1, some b)] := by
      have := hf.symm.trans hpts
      cases this
      rfl
    subst this
    have hz1 : o.z = 1 := by simpa using congrArg Prod.fst (List.mem_singleton.1 hmem)
    refine ⟨by simp [hz1], ?_⟩
    unfold compute at o1
    rw [if_neg (by simp), Res.bind_ok, if_neg (by simp [Pdfz.arrayOf])] at o1
    rw [show exCfg.opt = "bestChi2" from rfl, h3, Res.bind_ok] at o1
    rw [show (Pdfz.arrayOf [0, 1, 3] 5 [⟨[10, 2, 30], [0, 0, 0], 1⟩]).redshifts = [0, 1, 3] from rfl, hs, Res.bind_ok] at o1
    obtain ⟨r, -, hr⟩ := Res.bind_eq_ok.1 o1
    have hr' := congrArg (fun x : Res (List Out) => match x with | .ok l => l | _ => []) hr
    simp only at hr'
    have ho : o ∈ r.filterMap (outOf [("EXT0", ⟨1, some b, ""⟩)]) := by rw [hr']; simp
    obtain ⟨x, -, hx⟩ := List.mem_filterMap.1 ho
    unfold outOf at hx
    obtain ⟨f, hf1, hf2⟩ := Option.map_eq_some_iff.1 hx
    unfold mapFind at hf1
    by_cases hx1 : x.1.1 = "EXT0"
    · rw [← hf2]; simp [hx1]
    · rw [if_neg hx1] at hf1; cases hf1

end PdfOp
end Amazed
