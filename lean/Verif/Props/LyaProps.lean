import Verif.Model.Lya
import Mathlib.Data.List.Basic
import Mathlib.Data.List.Nodup

set_option linter.unusedVariables false
set_option linter.unusedSectionVars false

/-! # Profile of Lyman alpha (C163) -/

namespace Amazed
namespace Lya

variable {K : Type} [Field K] [LinearOrder K] [IsStrictOrderedRing K]

/-- A line whose profile depends on the IGM or is asymmetric. -/
def Prof.igm (p : Prof K) : Bool := p.isAsym || p.isSymIgm

/-- The elements are as their constructor makes them. -/
def WF (es : List (Elt K)) : Prop := ∀ e ∈ es, e = Elt.new e.lines

theorem new_mem (l : List (Nat × Prof K)) (k : Nat) : k ∈ (Elt.new l).asymIdx ↔ ∃ q, l[k]? = some q ∧ q.2.igm = true := by
  unfold Elt.new
  simp only [List.mem_filter, List.mem_range]
  constructor
  · rintro ⟨h1, h2⟩
    rw [List.getElem?_eq_getElem h1] at h2
    exact ⟨_, List.getElem?_eq_getElem h1, h2⟩
  · rintro ⟨q, h1, h2⟩
    refine ⟨(List.getElem?_eq_some_iff.1 h1).1, ?_⟩
    rw [h1]; exact h2

/-- All the profiles of an element changed. -/
def Elt.mapP (f : Prof K → Prof K) (e : Elt K) : Elt K := { e with lines := e.lines.map fun l => (l.1, f l.2) }

/-- The change keeps symmetric and Lorentzian profiles. -/
def Fixes (f : Prof K → Prof K) : Prop := ∀ p : Prof K, p.igm = false → f p = p

/-- The change keeps the kind of the profiles. -/
def Keeps (f : Prof K → Prof K) : Prop := ∀ p : Prof K, (f p).isAsym = p.isAsym ∧ (f p).isSymIgm = p.isSymIgm

theorem onAsym_eq {f : Prof K → Prof K} (hf : Fixes f) {e : Elt K} (he : e = Elt.new e.lines) : e.onAsym f = e.mapP f := by
  unfold Elt.onAsym Elt.mapP
  congr 1
  apply List.ext_getElem?
  intro k
  rw [List.getElem?_mapIdx, List.getElem?_map]
  cases h : e.lines[k]? with
  | none => rfl
  | some l =>
    simp only [Option.map_some]
    by_cases hk : k ∈ e.asymIdx
    · rw [if_pos hk]
    · rw [if_neg hk, hf]
      by_contra hc
      rw [he, new_mem] at hk
      exact hk ⟨l, h, by simpa using hc⟩

theorem wf_of {a : Elt K} (h : (Elt.new a.lines).asymIdx = a.asymIdx) : a = Elt.new a.lines :=
  calc a = ⟨a.lines, a.asymIdx⟩ := rfl
    _ = ⟨a.lines, (Elt.new a.lines).asymIdx⟩ := by rw [h]
    _ = Elt.new a.lines := rfl

theorem mapP_wf {f : Prof K → Prof K} (hf : Keeps f) {e : Elt K} (he : e = Elt.new e.lines) : e.mapP f = Elt.new (e.mapP f).lines := by
  have : (Elt.new (e.mapP f).lines).asymIdx = e.asymIdx := by
    conv_rhs => rw [he]
    unfold Elt.new Elt.mapP
    simp only [List.length_map]
    apply List.filter_congr
    intro k hk
    rw [List.getElem?_map]
    cases e.lines[k]? with
    | none => rfl
    | some l => simp only [Option.map_some]; rw [(hf l.2).1, (hf l.2).2]
  exact wf_of this

theorem keeps_setAsym (q : AsymP K) : Keeps (Prof.setAsym q) := by intro p; cases p <;> exact ⟨rfl, rfl⟩
theorem keeps_setIgm (i : Option Nat) (z : Option K) : Keeps (Prof.setIgm i z) := by intro p; cases p <;> exact ⟨rfl, rfl⟩
theorem keeps_setIgmFit (b : Bool) : Keeps (K := K) (Prof.setIgmFit b) := by intro p; cases p <;> exact ⟨rfl, rfl⟩
theorem keeps_reset : Keeps (K := K) Prof.reset := by
  intro p
  cases p with
  | symIgm ns i z fit => cases fit <;> exact ⟨rfl, rfl⟩
  | _ => exact ⟨rfl, rfl⟩
theorem fixes_setAsym (q : AsymP K) : Fixes (Prof.setAsym q) := by intro p h; cases p <;> first | rfl | cases h
theorem fixes_setIgm (i : Option Nat) (z : Option K) : Fixes (Prof.setIgm i z) := by intro p h; cases p <;> first | rfl | cases h
theorem fixes_setIgmFit (b : Bool) : Fixes (K := K) (Prof.setIgmFit b) := by intro p h; cases p <;> first | rfl | cases h
theorem fixes_reset : Fixes (K := K) Prof.reset := by intro p h; cases p <;> first | rfl | cases h

theorem mapP_mapP (f g : Prof K → Prof K) (e : Elt K) : (e.mapP g).mapP f = e.mapP fun p => f (g p) := by
  unfold Elt.mapP; simp

theorem mapP_id {f : Prof K → Prof K} {e : Elt K} (h : ∀ l ∈ e.lines, f l.2 = l.2) : e.mapP f = e := by
  unfold Elt.mapP
  have : e.lines.map (fun l => (l.1, f l.2)) = e.lines := by
    conv_rhs => rw [← List.map_id e.lines]
    apply List.map_congr_left
    intro l hl
    rw [h l hl]; rfl
  rw [this]

theorem mapP_congr {f g : Prof K → Prof K} {e : Elt K} (h : ∀ l ∈ e.lines, f l.2 = g l.2) : e.mapP f = e.mapP g := by
  unfold Elt.mapP
  have : e.lines.map (fun l => (l.1, f l.2)) = e.lines.map (fun l => (l.1, g l.2)) := List.map_congr_left fun l hl => by rw [h l hl]
  rw [this]

theorem mapP_get (f : Prof K → Prof K) (e : Elt K) (k : Nat) : (e.mapP f).lines[k]? = (e.lines[k]?).map fun l => (l.1, f l.2) := List.getElem?_map ..

/-- What a SYMIGM profile becomes before the fit. -/
def symF (cont : Option (Option Nat)) (z : K) (p : Prof K) : Prof K := match cont with
  | some idx => (p.setIgmFit false).setIgm idx (some z)
  | none => p.setIgmFit true

theorem keeps_symF (cont : Option (Option Nat)) (z : K) : Keeps (symF cont z) := by
  intro p; cases cont <;> cases p <;> exact ⟨rfl, rfl⟩

theorem fixes_symF (cont : Option (Option Nat)) (z : K) {p : Prof K} (h : p.isSymIgm = false) : symF cont z p = p := by
  cases cont <;> cases p <;> first | rfl | cases h

theorem setSymIgm_eq (cont : Option (Option Nat)) (z : K) {e : Elt K} (he : e = Elt.new e.lines) : e.setSymIgm cont z = e.mapP (symF cont z) := by
  unfold Elt.setSymIgm symF
  cases cont with
  | none => exact onAsym_eq (fixes_setIgmFit true) he
  | some idx =>
    simp only
    rw [onAsym_eq (fixes_setIgmFit false) he, onAsym_eq (fixes_setIgm _ _) (mapP_wf (keeps_setIgmFit false) he), mapP_mapP]

/-! ## Loops -/

theorem foldl_modify (g : Nat × List Nat → Elt K → Elt K) : ∀ (l : List (Nat × List Nat)) (es : List (Elt K)), (l.map (·.1)).Nodup →
    (l.foldl (fun es q => es.modify q.1 (g q)) es).length = es.length ∧
    (∀ q ∈ l, (l.foldl (fun es q => es.modify q.1 (g q)) es)[q.1]? = (es[q.1]?).map (g q)) ∧
    ∀ i, (∀ q ∈ l, q.1 ≠ i) → (l.foldl (fun es q => es.modify q.1 (g q)) es)[i]? = es[i]? := by
  intro l
  induction l with
  | nil => intro es _; simp
  | cons q l ih =>
    intro es hn
    rw [List.map_cons, List.nodup_cons] at hn
    obtain ⟨h1, h2, h3⟩ := ih (es.modify q.1 (g q)) hn.2
    rw [List.foldl_cons]
    refine ⟨by rw [h1, List.length_modify], ?_, ?_⟩
    · intro r hr
      rw [List.mem_cons] at hr
      rcases hr with rfl | hr
      · rw [h3 r.1 (fun q' hq' e => hn.1 (by rw [← e]; exact List.mem_map_of_mem hq')), List.getElem?_modify_eq]
        rfl
      · rw [h2 r hr, List.getElem?_modify_ne]
        rintro e
        exact hn.1 (by rw [e]; exact List.mem_map_of_mem hr)
    · intro i hi
      rw [h3 i (fun q' hq' => hi q' (by simp [hq'])), List.getElem?_modify_ne]
      exact hi q (by simp)

theorem igm_mem (es : List (Elt K)) (q : Nat × List Nat) : q ∈ igmIndices es ↔ ∃ e, es[q.1]? = some e ∧ q.2 = e.asymIdx ∧ e.asymIdx ≠ [] := by
  unfold igmIndices
  simp only [List.mem_map, List.mem_filter]
  constructor
  · rintro ⟨⟨e, i⟩, ⟨h1, h2⟩, rfl⟩
    rw [List.mk_mem_zipIdx_iff_getElem?] at h1
    exact ⟨e, h1, rfl, by simpa using h2⟩
  · rintro ⟨e, h1, h2, h3⟩
    refine ⟨(e, q.1), ⟨?_, by simpa using h3⟩, ?_⟩
    · rw [List.mk_mem_zipIdx_iff_getElem?]; exact h1
    · rw [← h2]

theorem igm_sorted (es : List (Elt K)) : ((igmIndices es).map (·.1)).Pairwise (· < ·) := by
  unfold igmIndices
  rw [List.map_map]
  have h : ((es.zipIdx.filter fun q => !q.1.asymIdx.isEmpty).map ((fun q : Nat × List Nat => q.1) ∘ fun q : Elt K × Nat => (q.2, q.1.asymIdx))).Sublist (es.zipIdx.map (·.2)) :=
    List.Sublist.map (fun q : Elt K × Nat => q.2) List.filter_sublist
  refine List.Pairwise.sublist h ?_
  rw [List.zipIdx_map_snd]
  exact List.pairwise_lt_range'

theorem igm_nodup (es : List (Elt K)) : ((igmIndices es).map (·.1)).Nodup := (igm_sorted es).imp fun h => Nat.ne_of_lt h

theorem igm_congr {a b : List (Elt K)} (h : a.map (·.asymIdx) = b.map (·.asymIdx)) : igmIndices a = igmIndices b := by
  have key : ∀ es : List (Elt K), igmIndices es = ((es.map (·.asymIdx)).zipIdx.filter fun q => !q.1.isEmpty).map fun q => (q.2, q.1) := by
    intro es
    unfold igmIndices
    rw [List.zipIdx_map, List.filter_map, List.map_map]
    rfl
  rw [key, key, h]

/-- The loop on the SYMIGM profiles changes all of them. -/
theorem symIgm_fold (cont : Option (Option Nat)) (z : K) (es : List (Elt K)) (hw : WF es) :
    (igmIndices es).foldl (symIgmStep cont z) es = es.map fun e => e.mapP (symF cont z) := by
  obtain ⟨h1, h2, h3⟩ := foldl_modify (fun q e => if (e.filterIdx (fun _ p => p.isSymIgm) q.2).isEmpty then e else e.setSymIgm cont z) (igmIndices es) es (igm_nodup es)
  apply List.ext_getElem?
  intro i
  rw [List.getElem?_map]
  cases he : es[i]? with
  | none =>
    rw [List.getElem?_eq_none_iff] at he
    exact List.getElem?_eq_none (by unfold symIgmStep; rw [h1]; exact he)
  | some e =>
    have hwe := hw e (List.mem_of_getElem? he)
    by_cases hs : e.asymIdx = []
    · have := h3 i (by
        rintro q hq rfl
        obtain ⟨e', q1, q2, q3⟩ := (igm_mem es q).1 hq
        rw [he] at q1; cases q1
        exact q3 hs)
      refine this.trans ?_
      rw [he, Option.map_some, mapP_id]
      intro l hl
      obtain ⟨k, hk⟩ := List.mem_iff_getElem?.1 hl
      apply fixes_symF
      by_contra hc
      have : k ∈ e.asymIdx := by rw [hwe, new_mem]; exact ⟨l, hk, by simp at hc; simp [Prof.igm, hc]⟩
      rw [hs] at this; cases this
    · have := h2 (i, e.asymIdx) ((igm_mem es _).2 ⟨e, he, rfl, hs⟩)
      refine this.trans ?_
      simp only
      rw [he, Option.map_some, Option.map_some]
      by_cases hem : (e.filterIdx (fun _ p => p.isSymIgm) e.asymIdx).isEmpty = true
      · rw [if_pos hem, mapP_id]
        intro l hl
        obtain ⟨k, hk⟩ := List.mem_iff_getElem?.1 hl
        apply fixes_symF
        by_contra hc
        have hk2 : k ∈ e.asymIdx := by rw [hwe, new_mem]; exact ⟨l, hk, by simp at hc; simp [Prof.igm, hc]⟩
        have : k ∈ e.filterIdx (fun _ p => p.isSymIgm) e.asymIdx := by
          unfold Elt.filterIdx
          rw [List.mem_filter, hk]
          exact ⟨hk2, by simpa using hc⟩
        rw [List.isEmpty_iff] at hem
        rw [hem] at this; cases this
      · rw [if_neg hem, setSymIgm_eq cont z hwe]

theorem wf_map {f : Prof K → Prof K} (hf : Keeps f) {es : List (Elt K)} (hw : WF es) : WF (es.map fun e => e.mapP f) := by
  intro e he
  obtain ⟨e0, h0, rfl⟩ := List.mem_map.1 he
  exact mapP_wf hf (hw e0 h0)

theorem igm_map (f : Prof K → Prof K) (es : List (Elt K)) : igmIndices (es.map fun e => e.mapP f) = igmIndices es := by
  apply igm_congr
  rw [List.map_map]
  rfl

/-- All the parameters tried are overwritten. -/
theorem trials_eq (b : AsymP K) : ∀ (l : List (AsymP K)) (e : Elt K), e = Elt.new e.lines →
    (l.foldl (fun e p => e.onAsym (Prof.setAsym p)) e).onAsym (Prof.setAsym b) = e.mapP (Prof.setAsym b) := by
  intro l
  induction l with
  | nil => intro e he; exact onAsym_eq (fixes_setAsym b) he
  | cons p l ih =>
    intro e he
    rw [List.foldl_cons, onAsym_eq (fixes_setAsym p) he, ih _ (mapP_wf (keeps_setAsym p) he), mapP_mapP]
    apply mapP_congr
    intro q _
    cases q.2 <;> rfl

theorem igmTrials_eq (b : Option Nat) (z : K) : ∀ (l : List Nat) (e : Elt K), e = Elt.new e.lines →
    (l.foldl (fun e i => e.onAsym (Prof.setIgm (some i) (some z))) e).onAsym (Prof.setIgm b (some z)) = e.mapP (Prof.setIgm b (some z)) := by
  intro l
  induction l with
  | nil => intro e he; exact onAsym_eq (fixes_setIgm b _) he
  | cons p l ih =>
    intro e he
    rw [List.foldl_cons, onAsym_eq (fixes_setIgm _ _) he, ih _ (mapP_wf (keeps_setIgm _ _) he), mapP_mapP]
    apply mapP_congr
    intro q _
    cases q.2 <;> rfl

/-! ## Lyman alpha -/

/-- The line taken for Lyman alpha: the first asymmetric or IGM line of the first element that has some. -/
def IsLya (es : List (Elt K)) (i k : Nat) : Prop :=
  ∃ e l, es[i]? = some e ∧ e.lines[k]? = some l ∧ l.2.igm = true ∧ (∀ k' l', k' < k → e.lines[k']? = some l' → l'.2.igm = false) ∧
    ∀ i' e', i' < i → es[i']? = some e' → ∀ l' ∈ e'.lines, l'.2.igm = false

theorem asymIdx_nil {e : Elt K} (he : e = Elt.new e.lines) : e.asymIdx = [] ↔ ∀ l ∈ e.lines, l.2.igm = false := by
  constructor
  · intro h l hl
    obtain ⟨k, hk⟩ := List.mem_iff_getElem?.1 hl
    by_contra hc
    have : k ∈ e.asymIdx := by rw [he, new_mem]; exact ⟨l, hk, by simpa using hc⟩
    rw [h] at this; cases this
  · intro h
    rw [List.eq_nil_iff_forall_not_mem]
    intro k hk
    rw [he, new_mem] at hk
    obtain ⟨q, h1, h2⟩ := hk
    rw [h q (List.mem_of_getElem? h1)] at h2; cases h2

theorem head_lya {es : List (Elt K)} (hw : WF es) {q : Nat × List Nat} {qs : List (Nat × List Nat)} (h : igmIndices es = q :: qs) :
    ∃ e k ks, es[q.1]? = some e ∧ q.2 = e.asymIdx ∧ e.asymIdx = k :: ks ∧ IsLya es q.1 k := by
  obtain ⟨e, h1, h2, h3⟩ := (igm_mem es q).1 (by rw [h]; simp)
  have hwe := hw e (List.mem_of_getElem? h1)
  obtain ⟨k, ks, hk⟩ := List.exists_cons_of_ne_nil h3
  obtain ⟨l, l1, l2⟩ : ∃ l, e.lines[k]? = some l ∧ l.2.igm = true := by
    have : k ∈ e.asymIdx := by rw [hk]; simp
    rwa [hwe, new_mem] at this
  refine ⟨e, k, ks, h1, h2, hk, e, l, h1, l1, l2, ?_, ?_⟩
  · intro k' l' hlt hl'
    by_contra hc
    have hm : k' ∈ e.asymIdx := by rw [hwe, new_mem]; exact ⟨l', hl', by simpa using hc⟩
    have hs : e.asymIdx.Pairwise (· < ·) := by
      rw [hwe]
      exact List.Pairwise.sublist List.filter_sublist List.pairwise_lt_range
    rw [hk] at hm hs
    rw [List.pairwise_cons] at hs
    rw [List.mem_cons] at hm
    rcases hm with rfl | hm
    · omega
    · have := hs.1 k' hm; omega
  · intro i' e' hlt he'
    rw [← asymIdx_nil (hw e' (List.mem_of_getElem? he'))]
    by_contra hc
    have hm : (i', e'.asymIdx) ∈ igmIndices es := (igm_mem es _).2 ⟨e', he', rfl, hc⟩
    have hs := igm_sorted es
    rw [h, List.map_cons, List.pairwise_cons] at hs
    rw [h, List.mem_cons] at hm
    rcases hm with e | hm
    · have := congrArg Prod.fst e; simp only at this; omega
    · have := hs.1 i' (List.mem_map.2 ⟨_, hm, rfl⟩); omega

theorem lya_unique {es : List (Elt K)} {i k i' k' : Nat} (h : IsLya es i k) (h' : IsLya es i' k') : i = i' ∧ k = k' := by
  obtain ⟨e, l, h1, h2, h3, h4, h5⟩ := h
  obtain ⟨e', l', g1, g2, g3, g4, g5⟩ := h'
  have hi : i = i' := by
    rcases Nat.lt_trichotomy i i' with hlt | rfl | hlt
    · rw [g5 i e hlt h1 l (List.mem_of_getElem? h2)] at h3; cases h3
    · rfl
    · rw [h5 i' e' hlt g1 l' (List.mem_of_getElem? g2)] at g3; cases g3
  subst hi
  rw [h1] at g1; cases g1
  refine ⟨rfl, ?_⟩
  rcases Nat.lt_trichotomy k k' with hlt | rfl | hlt
  · rw [g4 k l hlt h2] at h3; cases h3
  · rfl
  · rw [h4 k' l' hlt g2] at g3; cases g3

end Lya
end Amazed
