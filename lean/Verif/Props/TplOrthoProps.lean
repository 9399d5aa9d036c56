import Verif.Props.TplCatalogProps

/-! # C54: orthogonalised templates follow the LSF and the log-sampled templates -/

set_option linter.unusedSectionVars false

namespace Amazed
namespace TplCat

section
variable {τ L : Type} [DecidableEq L]

/-- Specification: the orthogonalised lists of a category are, one for one, the orthogonalisation with `g` of the original
and of the log-sampled templates. -/
def Fresh (g : τ → τ) (c : Cat τ L) (cat : String) : Prop :=
  ∀ s, get c true s cat = (get c false s cat).map (Option.map g)

/-- Specification: the state in which the log-sampled orthogonalised templates are up to date except that the first `m`
have been removed, one being left. -/
def PrefixRemoved (g : τ → τ) (c : Cat τ L) (cat : String) : Prop :=
  ∃ m, m < (get c false true cat).length ∧
    get c true true cat = List.replicate m none ++ ((get c false true cat).drop m).map (Option.map g)

/-- Specification: the states of a category from which the orthogonalisation is expected to bring the lists up to date:
no null original or log-sampled template, the right category, no log-sampled template without original, no orthogonalised log-sampled template without
orthogonalised template, and, when the catalogue records an LSF width, orthogonalised templates made with that width. -/
structure OkCat (nm : Names τ) (g : L → τ → τ) (c : Cat τ L) (cat : String) : Prop where
  ne : cat ≠ ""
  full : ∀ s, none ∉ get c false s cat
  category : ∀ s t, some t ∈ get c false s cat → nm.category t = cat
  base : get c false false cat = [] → get c false true cat = []
  both : get c true false cat = [] → get c true true cat = []
  made : ∀ w, c.lsf = some w →
    (get c true false cat = [] ∨ get c true false cat = (get c false false cat).map (Option.map (g w))) ∧
    (get c true true cat = [] ∨ PrefixRemoved (g w) c cat)

/-- Two states with the same lists except for the orthogonalised ones of a category. -/
def Frame (cat : String) (c c' : Cat τ L) : Prop :=
  ∀ o l cat', ¬ (o = true ∧ cat' = cat) → get c' o l cat' = get c o l cat'

theorem Frame.trans {cat : String} {a b c : Cat τ L} (h1 : Frame cat a b) (h2 : Frame cat b c) : Frame cat a c :=
  fun o l cat' h => (h2 o l cat' h).trans (h1 o l cat' h)

theorem exists_map_some {v : List (Option τ)} (h : none ∉ v) : ∃ us : List τ, v = us.map some := by
  induction v with
  | nil => exact ⟨[], rfl⟩
  | cons x xs ih =>
    cases x with
    | none => exact absurd List.mem_cons_self h
    | some t =>
      obtain ⟨us, rfl⟩ := ih fun q => h (List.mem_cons_of_mem _ q)
      exact ⟨t :: us, rfl⟩

/-! ## The two loops -/

theorem add_ortho {nm : Names τ} {c : Cat τ L} {t : τ} {cat : String} {s : Bool} (hc : nm.category t = cat) (hne : cat ≠ "")
    (ho : c.ortho = true) (hl : c.log = s) :
    ∃ c', add nm c t = (c', .ok ()) ∧ get c' true s cat = get c true s cat ++ [some t] ∧
      (∀ o l cat', ¬ (o = true ∧ l = s ∧ cat' = cat) → get c' o l cat' = get c o l cat') ∧
      c'.ortho = true ∧ c'.log = s ∧ c'.lsf = c.lsf := by
  unfold add
  rw [if_neg (by rw [hc]; exact hne)]
  refine ⟨_, rfl, ?_, ?_, ho, hl, rfl⟩
  · rw [get_put, if_pos ⟨ho.symm, hl.symm, hc.symm⟩, ho, hl, hc]
  · intro o l cat' h
    rw [get_put, if_neg (by rw [ho, hl, hc]; exact h)]

theorem orthoLoop_full {nm : Names τ} {orth : τ → Res τ} {g : τ → τ} {cat : String} {s : Bool} (hne : cat ≠ "") :
    ∀ (us : List τ) (i : Nat) (c : Cat τ L), (∀ t ∈ us, orth t = .ok (g t) ∧ nm.category (g t) = cat) → c.ortho = true →
      c.log = s →
      ∃ c', orthoLoop nm orth cat false i (us.map some) c = (c', .ok ()) ∧
        get c' true s cat = get c true s cat ++ us.map (fun t => some (g t)) ∧
        (∀ o l cat', ¬ (o = true ∧ l = s ∧ cat' = cat) → get c' o l cat' = get c o l cat') ∧
        c'.ortho = true ∧ c'.log = s ∧ c'.lsf = c.lsf := by
  intro us
  induction us with
  | nil => intro i c _ ho hl; exact ⟨c, rfl, by simp, fun _ _ _ _ => rfl, ho, hl, rfl⟩
  | cons t ts ih =>
    intro i c hg ho hl
    obtain ⟨h1, h2⟩ := hg t List.mem_cons_self
    obtain ⟨c1, e1, g1, f1, o1, l1, s1⟩ := add_ortho (c := c) h2 hne ho hl
    obtain ⟨c2, e2, g2, f2, o2, l2, s2⟩ := ih (i + 1) c1 (fun t ht => hg t (List.mem_cons_of_mem _ ht)) o1 l1
    refine ⟨c2, ?_, ?_, ?_, o2, l2, s2.trans s1⟩
    · rw [List.map_cons]
      unfold orthoLoop
      simp only [Bool.false_eq_true, if_false, h1, e1, andThen]
      exact e2
    · rw [g2, g1]; simp
    · intro o l cat' h; rw [f2 o l cat' h, f1 o l cat' h]

theorem set_ortho {nm : Names τ} {c : Cat τ L} {t : τ} {cat : String} {s : Bool} {i : Nat} (hc : nm.category t = cat)
    (ho : c.ortho = true) (hl : c.log = s) (hi : (get c true s cat)[i]? = some none) (hs : ∃ t', some t' ∈ get c true s cat) :
    ∃ c', setTemplate nm c t i = (c', .ok ()) ∧ get c' true s cat = (get c true s cat).set i (some t) ∧
      (∀ o l cat', ¬ (o = true ∧ l = s ∧ cat' = cat) → get c' o l cat' = get c o l cat') ∧
      c'.ortho = true ∧ c'.log = s ∧ c'.lsf = c.lsf := by
  have hlt : i < (get c true s cat).length := (List.getElem?_eq_some_iff.1 hi).1
  have hset : (get c true s cat).set i none = get c true s cat := by
    apply List.ext_getElem?
    intro k
    rw [List.getElem?_set]
    split_ifs with h1
    · subst h1; exact hi.symm
    · rfl
  have hne : get c true s cat ≠ [] := by intro e; rw [e] at hlt; exact absurd hlt (by simp)
  have hgp : ∀ o l cat', get (put c true s cat ((get c true s cat).set i none)) o l cat' = get c o l cat' := by
    intro o l cat'
    rw [get_put]
    split_ifs with h
    · obtain ⟨rfl, rfl, rfl⟩ := h; rw [hset]
    · rfl
  have hdrop : dropOne c cat true s (i : Int) = (put c true s cat ((get c true s cat).set i none), .ok ()) := by
    unfold dropOne
    rw [if_pos ⟨by omega, by omega⟩]
    simp only [Int.toNat_natCast]
    rw [if_neg]
    rw [nonNull_zero]
    intro q
    obtain ⟨t', ht'⟩ := hs
    obtain ⟨j, hj, e⟩ := List.getElem_of_mem ht'
    have := q j
    unfold slot at this
    rw [hgp, List.getD_eq_getElem?_getD, List.getElem?_eq_getElem hj, e] at this
    cases this
  unfold setTemplate clearOne
  rw [hc, ho, hl, if_pos rfl]
  unfold clearOneOrtho
  rw [if_neg (fun e => hne (count_zero.1 e)), hdrop]
  simp only [andThen]
  set c1 := put c true s cat ((get c true s cat).set i none) with hc1
  have ho1 : c1.ortho = true := ho
  have hl1 : c1.log = s := hl
  rw [ho1, hl1, hgp true s cat, if_neg, if_pos ⟨by omega, by omega⟩]
  · refine ⟨_, rfl, ?_, ?_, ho, hl, rfl⟩
    · rw [get_put, if_pos ⟨rfl, rfl, rfl⟩, Int.toNat_natCast]
    · intro o l cat' h; rw [get_put, if_neg h, hgp]
  · rw [count_zero, hgp]; exact hne

theorem orthoLoop_partial {nm : Names τ} {orth : τ → Res τ} {g : τ → τ} {cat : String} {s : Bool} :
    ∀ (us : List τ) (m : Nat) (done : List (Option τ)) (c : Cat τ L),
      (∀ t ∈ us, orth t = .ok (g t) ∧ nm.category (g t) = cat) → c.ortho = true → c.log = s → m ≤ us.length →
      get c true s cat = done ++ (List.replicate m none ++ (us.drop m).map (fun t => some (g t))) →
      (∃ t, some t ∈ get c true s cat) →
      ∃ c', orthoLoop nm orth cat true done.length (us.map some) c = (c', .ok ()) ∧
        get c' true s cat = done ++ us.map (fun t => some (g t)) ∧
        (∀ o l cat', ¬ (o = true ∧ l = s ∧ cat' = cat) → get c' o l cat' = get c o l cat') ∧ c'.lsf = c.lsf := by
  intro us
  induction us with
  | nil =>
    intro m done c _ _ _ hm hv _
    have : m = 0 := by simpa using hm
    subst this
    exact ⟨c, rfl, by simpa using hv, fun _ _ _ _ => rfl, rfl⟩
  | cons t ts ih =>
    intro m done c hg ho hl hm hv hs
    rw [List.map_cons]
    unfold orthoLoop
    rw [if_pos rfl, C41_get, ho, hl, count_eq]
    have hlen : (get c true s cat).length = done.length + (ts.length + 1) := by
      rw [hv]; simp at hm ⊢; omega
    rw [if_pos ⟨by omega, by omega⟩, Int.toNat_natCast]
    unfold slot
    cases m with
    | zero =>
      have hget : (get c true s cat).getD done.length none = some (g t) := by
        rw [hv, List.getD_eq_getElem?_getD, List.getElem?_append_right (le_refl _)]; simp
      rw [hget]
      exact ⟨c, rfl, by simpa using hv, fun _ _ _ _ => rfl, rfl⟩
    | succ m =>
      have hget' : (get c true s cat)[done.length]? = some none := by
        rw [hv, List.getElem?_append_right (le_refl _)]; simp
      have hget : (get c true s cat).getD done.length none = none := by
        rw [List.getD_eq_getElem?_getD, hget']; rfl
      rw [hget]
      obtain ⟨h1, h2⟩ := hg t List.mem_cons_self
      obtain ⟨c1, e1, g1, f1, o1, l1, s1⟩ := set_ortho (c := c) h2 ho hl hget' hs
      have hv1 : get c1 true s cat = (done ++ [some (g t)]) ++ (List.replicate m none ++ (ts.drop m).map (fun t => some (g t))) := by
        rw [g1, hv, List.set_append_right _ _ (le_refl _)]
        simp [List.replicate_succ]
      obtain ⟨c2, e2, g2, f2, s2⟩ := ih m (done ++ [some (g t)]) c1 (fun t ht => hg t (List.mem_cons_of_mem _ ht)) o1 l1
        (by simpa using hm) hv1 ⟨g t, by rw [hv1]; simp⟩
      refine ⟨c2, ?_, ?_, ?_, s2.trans s1⟩
      · simp only [h1, e1, andThen]
        rw [← e2]; simp
      · rw [g2]; simp
      · intro o l cat' h; rw [f2 o l cat' h, f1 o l cat' h]

/-! ## One sampling -/

theorem map_some_map (g : τ → τ) (us : List τ) : (us.map some).map (Option.map g) = us.map (fun t => some (g t)) := by
  rw [List.map_map]; rfl

/-- One pass over a sampling brings its list up to date when it is empty or, for the log sampling, when a prefix has been
removed. -/
theorem orthoSampling_fresh {nm : Names τ} {orth : τ → Res τ} {g : τ → τ} {cat : String} (hne : cat ≠ "") (s : Bool)
    (c : Cat τ L) (hfull : none ∉ get c false s cat)
    (hg : ∀ t, some t ∈ get c false s cat → orth t = .ok (g t) ∧ nm.category (g t) = cat)
    (hv : get c true s cat = [] ∨ (s = true ∧ PrefixRemoved g c cat)) :
    ∃ c', orthoSampling nm orth cat s c = (c', .ok ()) ∧ get c' true s cat = (get c false s cat).map (Option.map g) ∧
      (∀ o l cat', ¬ (o = true ∧ l = s ∧ cat' = cat) → get c' o l cat' = get c o l cat') ∧ c'.lsf = c.lsf := by
  obtain ⟨us, hus⟩ := exists_map_some hfull
  have hg' : ∀ t ∈ us, orth t = .ok (g t) ∧ nm.category (g t) = cat := by
    intro t ht; exact hg t (by rw [hus]; exact List.mem_map_of_mem ht)
  unfold orthoSampling
  simp only
  set c1 : Cat τ L := { c with log := s, ortho := true } with hc1
  have hget : ∀ o l cat', get c1 o l cat' = get c o l cat' := fun _ _ _ => rfl
  rw [hget, hus, map_some_map]
  rcases hv with hv | ⟨rfl, m, hm, hv⟩
  · have hb : (s && decide (count c1 cat true s ≠ 0)) = false := by
      rw [count_eq, hget, hv]; simp
    rw [hb]
    obtain ⟨c2, e, g2, f, _, _, sl⟩ := orthoLoop_full (nm := nm) (orth := orth) (g := g) hne us 0 c1 hg' rfl rfl
    refine ⟨c2, e, ?_, f, sl⟩
    rw [g2, hget, hv]; rfl
  · have hlen : us.length = (get c false true cat).length := by rw [hus]; simp
    have hv' : get c1 true true cat = [] ++ (List.replicate m none ++ (us.drop m).map (fun t => some (g t))) := by
      rw [hget, hv, hus, ← List.map_drop, map_some_map]; rfl
    have hne' : get c1 true true cat ≠ [] := by
      intro e
      have := congrArg List.length e
      rw [hv'] at this
      simp at this
      omega
    have hb : (true && decide (count c1 cat true true ≠ 0)) = true := by
      rw [Bool.true_and, decide_eq_true_eq, Ne, count_zero]; exact hne'
    rw [hb]
    have hex : ∃ t, some t ∈ get c1 true true cat := by
      refine ⟨g (us[m]'(by omega)), ?_⟩
      rw [hv', List.nil_append]
      apply List.mem_append_right
      rw [List.mem_map]
      exact ⟨us[m]'(by omega), by rw [List.mem_iff_getElem]; exact ⟨0, by rw [List.length_drop]; omega, by simp⟩, rfl⟩
    obtain ⟨c2, e, g2, f, sl⟩ := orthoLoop_partial (nm := nm) (orth := orth) (g := g) us m [] c1 hg' rfl rfl
      (by omega) hv' hex
    exact ⟨c2, e, by rw [g2]; rfl, f, sl⟩

/-! ## The whole orthogonalisation -/

theorem clearAllOrtho_lsf_none {c : Cat τ L} {cat : String} {l : Bool} (h : c.lsf = none) : (clearAllOrtho c cat l).lsf = none := by
  unfold clearAllOrtho
  split_ifs
  · exact h
  · rfl
  · exact h

/-- After both orthogonalised lists of a category that has one are cleared, no LSF width is recorded. -/
theorem clear_both_lsf {c : Cat τ L} {cat : String} (h : get c true false cat ≠ []) :
    (clearAll (clearAll c cat true false) cat true true).lsf = none := by
  unfold clearAll
  rw [if_pos rfl, if_pos rfl]
  have h1 : get (clearAllOrtho c cat false) true true cat = get c true true cat := by
    rw [clearAllOrtho_get, if_neg (by simp)]
  have h3 : get (clearAllOrtho c cat false) true false cat = [] := by
    rw [clearAllOrtho_get, if_pos ⟨rfl, rfl, rfl⟩]
  by_cases h2 : get c true true cat = []
  · apply clearAllOrtho_lsf_none
    unfold clearAllOrtho
    rw [if_neg (fun e => h (count_zero.1 e)), if_pos]
    rw [count_zero, get_put, if_neg (by simp)]; exact h2
  · generalize clearAllOrtho c cat false = c1 at h1 h3
    unfold clearAllOrtho
    rw [if_neg (fun e => h2 (h1.symm.trans (count_zero.1 e))), if_pos]
    rw [count_zero, get_put, if_neg (by simp)]
    exact h3

theorem logChanged_eq {c : Cat τ L} {cat : String} :
    logChanged c cat = true ↔ get c false true cat ≠ [] ∧ (get c true true cat = [] ∨ none ∈ get c true true cat) := by
  unfold logChanged
  by_cases h : get c false true cat = []
  · rw [if_pos (count_zero.2 h)]; simp [h]
  · rw [if_neg (fun e => h (count_zero.1 e))]
    by_cases h2 : get c true true cat = []
    · rw [if_neg (by have := count_zero.2 h2; omega)]; simp [h, h2]
    · rw [if_pos (by have : count c cat true true ≠ 0 := fun e => h2 (count_zero.1 e); omega), decide_eq_true_eq,
        (C41_count c cat true true).1, (C41_count c cat true true).2]
      have key : ∀ v : List (Option τ), (v.filterMap id).length ≤ v.length ∧ ((v.filterMap id).length ≠ v.length ↔ none ∈ v) := by
        intro v
        induction v with
        | nil => simp
        | cons x xs ih =>
          cases x with
          | none =>
            have := ih.1
            simp only [List.filterMap_cons, id, List.length_cons, List.mem_cons, true_or, iff_true]; omega
          | some t =>
            simp only [List.filterMap_cons, id, List.length_cons, List.mem_cons, reduceCtorEq, false_or]
            rw [← ih.2]; omega
      rw [(key _).2]
      simp [h, h2]

theorem prefixRemoved_zero {g : τ → τ} {c : Cat τ L} {cat : String} (h : PrefixRemoved g c cat) (hn : none ∉ get c true true cat) :
    get c true true cat = (get c false true cat).map (Option.map g) := by
  obtain ⟨m, hm, hv⟩ := h
  cases m with
  | zero => simpa using hv
  | succ m => exact absurd (by rw [hv, List.replicate_succ]; exact List.mem_cons_self) hn

/-- **C54, orthogonalisation.** Whatever the LSF and the log-sampled templates were before, after the call the
orthogonalised templates of the category are exactly the orthogonalisations, with the LSF of the call, of the original and
of the log-sampled templates, one for one. The original and log-sampled templates and the other categories are
unchanged, the catalogue is in original mode with the sampling of before the call, and the category stays in a state from
which a later orthogonalisation works. The LSF width recorded afterwards is that of the call, or none when it has changed. -/
theorem C54_orthogonalize (nm : Names τ) (orth : L → τ → Res τ) (g : L → τ → τ) (w : L) (c : Cat τ L) (cat : String)
    (hok : OkCat nm g c cat)
    (hg : ∀ s t, some t ∈ get c false s cat → orth w t = .ok (g w t) ∧ nm.category (g w t) = cat) :
    ∃ c', orthogonalize nm orth w c cat = (c', .ok ()) ∧ Fresh (g w) c' cat ∧ Frame cat c c' ∧
      c'.ortho = false ∧ c'.log = c.log ∧
      ((c'.lsf = some w ∧ (c.lsf = some w ∨ get c true false cat = [])) ∨
        (c'.lsf = none ∧ c.lsf ≠ some w ∧ get c true false cat ≠ [])) ∧ OkCat nm g c' cat := by
  have hmono : ∀ c' : Cat τ L, Fresh (g w) c' cat → Frame cat c c' → (c'.lsf = some w ∨ c'.lsf = none) → OkCat nm g c' cat := by
    intro c' hf hfr hl
    have hfr' : ∀ s, get c' false s cat = get c false s cat := fun s => hfr false s cat (by simp)
    refine ⟨hok.ne, fun s => by rw [hfr']; exact hok.full s, fun s => by rw [hfr']; exact hok.category s,
      by rw [hfr', hfr']; exact hok.base, ?_, ?_⟩
    · rw [hf, hf, List.map_eq_nil_iff, List.map_eq_nil_iff, hfr', hfr']; exact hok.base
    · intro w' hw'
      rcases hl with hl | hl
      swap
      · rw [hl] at hw'; cases hw'
      rw [hl] at hw'; cases hw'
      refine ⟨Or.inr (hf false), ?_⟩
      by_cases hn : get c' false true cat = []
      · left; rw [hf, hn]; rfl
      · exact Or.inr ⟨0, List.length_pos_iff.2 hn, by rw [hf]; simp⟩
  have hgs : ∀ s, ∀ t, some t ∈ get c false s cat → orth w t = .ok (g w t) ∧ nm.category (g w t) = cat := hg
  -- both samplings, from two empty lists
  have hboth : ∀ c1 : Cat τ L, Frame cat c c1 → get c1 true false cat = [] →
      (get c1 true true cat = [] ) →
      ∃ c2, ([false, true].foldl (fun q s => andThen q (orthoSampling nm (orth w) cat s)) (c1, .ok ())) = (c2, .ok ()) ∧
        Fresh (g w) c2 cat ∧ Frame cat c c2 ∧ c2.lsf = c1.lsf := by
    intro c1 hfr h10 h11
    have hb : ∀ s, get c1 false s cat = get c false s cat := fun s => hfr false s cat (by simp)
    obtain ⟨c2, e2, g2, f2, s2⟩ := orthoSampling_fresh (nm := nm) (orth := orth w) (g := g w) hok.ne false c1
      (by rw [hb]; exact hok.full false) (by rw [hb]; exact hgs false) (Or.inl h10)
    have hb2 : ∀ s, get c2 false s cat = get c false s cat := fun s => by rw [f2 _ _ _ (by simp), hb]
    obtain ⟨c3, e3, g3, f3, s3⟩ := orthoSampling_fresh (nm := nm) (orth := orth w) (g := g w) hok.ne true c2
      (by rw [hb2]; exact hok.full true) (by rw [hb2]; exact hgs true) (Or.inl (by rw [f2 _ _ _ (by simp), h11]))
    refine ⟨c3, ?_, ?_, ?_, s3.trans s2⟩
    · simp only [List.foldl_cons, List.foldl_nil, andThen, e2, e3]
    · intro s
      cases s
      · rw [f3 _ _ _ (by simp), g2, f3 _ _ _ (by simp), hb2, hb]
      · rw [g3, f3 _ _ _ (by simp)]
    · intro o l cat' h
      rw [f3 _ _ _ (by tauto), f2 _ _ _ (by tauto), hfr _ _ _ h]
  unfold orthogonalize
  simp only
  unfold prepare
  simp only
  by_cases h0 : get c true false cat = []
  · rw [if_pos (count_zero.2 h0)]
    obtain ⟨c2, e2, hf2, hfr2, hs2⟩ := hboth { c with lsf := some w } (fun _ _ _ _ => rfl) h0 (hok.both h0)
    simp only [Bool.true_eq_false, if_false]
    rw [e2]
    exact ⟨{ c2 with log := c.log, ortho := false }, rfl, hf2, hfr2, rfl, rfl, Or.inl ⟨hs2, Or.inr h0⟩, hmono _ hf2 hfr2 (Or.inl hs2)⟩
  · rw [if_neg (fun e => h0 (count_zero.1 e))]
    by_cases hl : c.lsf ≠ some w
    · rw [if_pos hl]
      simp only [Bool.true_eq_false, if_false]
      set c1 : Cat τ L := clearAll (clearAll { c with lsf := some w } cat true false) cat true true with hc1
      have hget : ∀ o l cat', get c1 o l cat' = if o = true ∧ cat' = cat then [] else get c o l cat' := by
        intro o l cat'
        rw [hc1]
        unfold clearAll
        rw [if_pos rfl, if_pos rfl, clearAllOrtho_get, clearAllOrtho_get]
        cases o <;> cases l <;> by_cases hc : cat' = cat <;> simp [hc] <;> rfl
      have hnone : c1.lsf = none := clear_both_lsf (c := { c with lsf := some w }) h0
      obtain ⟨c2, e2, hf2, hfr2, hs2⟩ := hboth c1 (fun o l cat' h => by rw [hget, if_neg h]) (by rw [hget]; simp) (by rw [hget]; simp)
      rw [e2]
      rw [hnone] at hs2
      exact ⟨{ c2 with log := c.log, ortho := false }, rfl, hf2, hfr2, rfl, rfl, Or.inr ⟨hs2, hl, h0⟩,
        hmono _ hf2 hfr2 (Or.inr hs2)⟩
    · rw [if_neg hl]
      push Not at hl
      obtain ⟨hm1, hm2⟩ := hok.made w hl
      have hm1 := hm1.resolve_left h0
      set c1 : Cat τ L := { c with lsf := some w } with hc1
      have hget : ∀ o l cat', get c1 o l cat' = get c o l cat' := fun _ _ _ => rfl
      by_cases hch : logChanged c1 cat = true
      · rw [if_pos hch]
        simp only [Bool.true_eq_false, if_false, List.foldl_cons, List.foldl_nil]
        obtain ⟨c2, e2, g2, f2, s2⟩ := orthoSampling_fresh (nm := nm) (orth := orth w) (g := g w) hok.ne true c1
          (hok.full true) (hgs true) (hm2.imp id fun h => ⟨rfl, h⟩)
        have hf2 : Fresh (g w) c2 cat := by
          intro s
          cases s
          · rw [f2 _ _ _ (by simp), f2 _ _ _ (by simp)]; exact hm1
          · rw [g2, f2 _ _ _ (by simp)]
        have hfr2 : Frame cat c c2 := fun o l cat' h => f2 _ _ _ (by tauto)
        simp only [andThen, e2]
        exact ⟨{ c2 with log := c.log, ortho := false }, rfl, hf2, hfr2, rfl, rfl, Or.inl ⟨s2, Or.inl hl⟩, hmono _ hf2 hfr2 (Or.inl s2)⟩
      · rw [if_neg hch]
        simp only [if_true]
        have hf : Fresh (g w) c cat := by
          intro s
          cases s
          · exact hm1
          · rw [logChanged_eq] at hch
            push Not at hch
            by_cases hn : get c false true cat = []
            · rcases hm2 with h | ⟨m, h, _⟩
              · rw [h, hn]; rfl
              · rw [hn] at h; exact absurd h (by simp)
            · obtain ⟨h3, h4⟩ := hch hn
              exact prefixRemoved_zero (hm2.resolve_left h3) h4
        have hfr : Frame cat c c := fun _ _ _ _ => rfl
        exact ⟨{ c1 with log := c.log, ortho := false }, rfl, hf, hfr, rfl, rfl, Or.inl ⟨rfl, Or.inl hl⟩, hmono _ hf hfr (Or.inl rfl)⟩

theorem okCat_of_frame {nm : Names τ} {g : L → τ → τ} {c c' : Cat τ L} {cat cat' : String} (h : OkCat nm g c cat')
    (hne : cat' ≠ cat) (hf : Frame cat c c')
    (hl : c'.lsf = c.lsf ∨ c'.lsf = none ∨ get c true false cat' = []) : OkCat nm g c' cat' := by
  have hg : ∀ o l, get c' o l cat' = get c o l cat' := fun o l => hf o l cat' (by tauto)
  refine ⟨h.ne, fun s => by rw [hg]; exact h.full s, fun s => by rw [hg]; exact h.category s, by rw [hg, hg]; exact h.base,
    by rw [hg, hg]; exact h.both, ?_⟩
  intro w hw
  unfold PrefixRemoved
  simp only [hg]
  rcases hl with hl | hl | hl
  · rw [hl] at hw; exact h.made w hw
  · rw [hl] at hw; cases hw
  · exact ⟨Or.inl hl, Or.inl (h.both hl)⟩

/-- **C54, all spectrum models.** One call for all the spectrum models of a run, from a catalogue in which all of them have
been orthogonalised before, or none, or which records the LSF width of the call, brings the orthogonalised templates of
every spectrum model up to date with the LSF of the call, and keeps the original and log-sampled templates. -/
theorem C54_all (nm : Names τ) (orth : L → τ → Res τ) (g : L → τ → τ) (w : L) (cats : List String) (c : Cat τ L)
    (hnd : cats.Nodup) (hok : ∀ cat ∈ cats, OkCat nm g c cat)
    (hg : ∀ cat ∈ cats, ∀ s t, some t ∈ get c false s cat → orth w t = .ok (g w t) ∧ nm.category (g w t) = cat)
    (hl : c.lsf = some w ∨ (∀ cat ∈ cats, get c true false cat = []) ∨ (∀ cat ∈ cats, get c true false cat ≠ [])) :
    ∃ c', orthogonalizeAll nm orth w cats c = (c', .ok ()) ∧ (∀ cat ∈ cats, Fresh (g w) c' cat ∧ OkCat nm g c' cat) ∧
      (∀ l cat', get c' false l cat' = get c false l cat') ∧
      (∀ o l, ∀ cat' ∉ cats, get c' o l cat' = get c o l cat') ∧
      (c'.lsf = some w ∨ c'.lsf = none ∨ c'.lsf = c.lsf) := by
  induction cats generalizing c with
  | nil => exact ⟨c, rfl, by simp, fun _ _ => rfl, fun _ _ _ _ => rfl, Or.inr (Or.inr rfl)⟩
  | cons cat cats ih =>
    obtain ⟨c1, e1, hf1, hfr1, _, _, hl1, hok1⟩ := C54_orthogonalize nm orth g w c cat (hok cat List.mem_cons_self)
      (hg cat List.mem_cons_self)
    have hne : ∀ cat' ∈ cats, cat' ≠ cat := by
      intro cat' h e; subst e; exact (List.nodup_cons.1 hnd).1 h
    have hg1 : ∀ o l, ∀ cat' ∈ cats, get c1 o l cat' = get c o l cat' := by
      intro o l cat' h; exact hfr1 o l cat' (fun q => hne cat' h q.2)
    have hbase : ∀ l cat', get c1 false l cat' = get c false l cat' := fun l cat' => hfr1 false l cat' (by simp)
    have hkeep : ∀ cat' ∈ cats, OkCat nm g c1 cat' := by
      intro cat' h
      refine okCat_of_frame (hok cat' (List.mem_cons_of_mem _ h)) (hne cat' h) hfr1 ?_
      rcases hl1 with ⟨hl1, q⟩ | ⟨hl1, _⟩
      · rcases q with q | q
        · exact Or.inl (hl1.trans q.symm)
        · rcases hl with hl | hl | hl
          · exact Or.inl (hl1.trans hl.symm)
          · exact Or.inr (Or.inr (hl cat' (List.mem_cons_of_mem _ h)))
          · exact absurd q (hl cat List.mem_cons_self)
      · exact Or.inr (Or.inl hl1)
    have hl' : c1.lsf = some w ∨ (∀ cat ∈ cats, get c1 true false cat = []) ∨ (∀ cat ∈ cats, get c1 true false cat ≠ []) := by
      rcases hl1 with ⟨hl1, _⟩ | ⟨hl1, q1, q2⟩
      · exact Or.inl hl1
      · rcases hl with hl | hl | hl
        · exact absurd hl q1
        · exact absurd (hl cat List.mem_cons_self) q2
        · exact Or.inr (Or.inr fun cat' h => by rw [hg1 _ _ _ h]; exact hl cat' (List.mem_cons_of_mem _ h))
    obtain ⟨c2, e2, hf2, hb2, hfr2, hs2⟩ := ih c1 (List.nodup_cons.1 hnd).2 hkeep
      (fun cat' h s t ht => hg cat' (List.mem_cons_of_mem _ h) s t (by rw [← hbase]; exact ht)) hl'
    have hnot : cat ∉ cats := (List.nodup_cons.1 hnd).1
    have hs3 : c2.lsf = some w ∨ c2.lsf = none := by
      rcases hs2 with h | h | h
      · exact Or.inl h
      · exact Or.inr h
      · rw [h]; rcases hl1 with ⟨q, _⟩ | ⟨q, _⟩
        · exact Or.inl q
        · exact Or.inr q
    refine ⟨c2, ?_, ?_, ?_, ?_, hs3.imp id Or.inl⟩
    · unfold orthogonalizeAll
      rw [e1]
      exact e2
    · intro cat' h
      rcases List.mem_cons.1 h with rfl | h
      · have hf : Fresh (g w) c2 cat' := by
          intro s; rw [hfr2 _ _ _ hnot, hfr2 _ _ _ hnot]; exact hf1 s
        refine ⟨hf, ?_⟩
        -- the lists of the first category are not changed by the rest; only the recorded width can be
        have hgg : ∀ o l, get c2 o l cat' = get c1 o l cat' := fun o l => hfr2 o l cat' hnot
        refine ⟨hok1.ne, fun s => by rw [hgg]; exact hok1.full s, fun s => by rw [hgg]; exact hok1.category s,
          by rw [hgg, hgg]; exact hok1.base, by rw [hgg, hgg]; exact hok1.both, ?_⟩
        intro w' hw'
        rcases hs3 with q | q
        swap
        · rw [q] at hw'; cases hw'
        rw [q] at hw'; cases hw'
        refine ⟨Or.inr (hf false), ?_⟩
        by_cases hn : get c2 false true cat' = []
        · left; rw [hf, hn]; rfl
        · exact Or.inr ⟨0, List.length_pos_iff.2 hn, by rw [hf]; simp⟩
      · exact hf2 cat' h
    · intro l cat'; rw [hb2, hbase]
    · intro o l cat' h
      simp only [List.mem_cons, not_or] at h
      rw [hfr2 o l cat' h.2, hfr1 o l cat' (fun q => h.1 q.2)]

/-- **C54, spectra one after the other.** A catalogue is loaded once, then spectra with any sequence of LSFs are processed
with the same spectrum models: for every spectrum the orthogonalised templates in use are those made with its LSF. -/
theorem C54_history_partial (nm : Names τ) (orth : L → τ → Res τ) (g : L → τ → τ) (cats : List String) (c : Cat τ L)
    (hnd : cats.Nodup) (hok : ∀ cat ∈ cats, OkCat nm g c cat)
    (hfirst : ∀ cat ∈ cats, get c true false cat = [] ∧ get c false false cat ≠ [])
    (hg : ∀ w, ∀ cat ∈ cats, ∀ s t, some t ∈ get c false s cat → orth w t = .ok (g w t) ∧ nm.category (g w t) = cat)
    (ws : List L) (w : L) :
    ∃ c', orthogonalizeAll nm orth w cats (ws.foldl (fun c w => (orthogonalizeAll nm orth w cats c).1) c) = (c', .ok ()) ∧
      ∀ cat ∈ cats, Fresh (g w) c' cat ∧ ∀ s, get c' false s cat = get c false s cat := by
  have key : ∀ (ws : List L) (c1 : Cat τ L), (∀ cat ∈ cats, OkCat nm g c1 cat) →
      (∀ l cat', get c1 false l cat' = get c false l cat') →
      ((∀ cat ∈ cats, get c1 true false cat = []) ∨ (∀ cat ∈ cats, get c1 true false cat ≠ [])) →
      let c2 := ws.foldl (fun c w => (orthogonalizeAll nm orth w cats c).1) c1
      (∀ cat ∈ cats, OkCat nm g c2 cat) ∧ (∀ l cat', get c2 false l cat' = get c false l cat') ∧
      ((∀ cat ∈ cats, get c2 true false cat = []) ∨ (∀ cat ∈ cats, get c2 true false cat ≠ [])) := by
    intro ws
    induction ws with
    | nil => exact fun c1 h1 h2 h3 => ⟨h1, h2, h3⟩
    | cons w ws ih =>
      intro c1 h1 h2 h3
      obtain ⟨c2, e2, hf2, hb2, -, -⟩ := C54_all nm orth g w cats c1 hnd h1
        (fun cat h s t ht => hg w cat h s t (by rw [← h2]; exact ht)) (Or.inr h3)
      simp only [List.foldl_cons, e2]
      refine ih c2 (fun cat h => (hf2 cat h).2) (fun l cat' => (hb2 l cat').trans (h2 l cat')) (Or.inr ?_)
      intro cat h
      rw [(hf2 cat h).1 false, Ne, List.map_eq_nil_iff, hb2, h2]
      exact (hfirst cat h).2
  obtain ⟨h1, h2, h3⟩ := key ws c hok (fun _ _ => rfl) (Or.inl fun cat h => (hfirst cat h).1)
  obtain ⟨c', e, hf, hb, -, -⟩ := C54_all nm orth g w cats _ hnd h1
    (fun cat h s t ht => hg w cat h s t (by rw [← h2]; exact ht)) (Or.inr h3)
  exact ⟨c', e, fun cat h => ⟨(hf cat h).1, fun s => (hb s cat).trans (h2 s cat)⟩⟩

/-! ## Log-sampled templates -/

/-- **C54, log sampling the first time.** When a category has no log-sampled template, the call makes one for each
original template, in order, and changes nothing else. -/
theorem C54_rebin_first (nm : Names τ) (need : τ → Bool) (reb : τ → Res τ) (f : τ → τ) (c : Cat τ L) (cat : String)
    (hne : cat ≠ "") (ho : c.ortho = false) (hlog : get c false true cat = []) (hfull : none ∉ get c false false cat)
    (hf : ∀ t, some t ∈ get c false false cat → reb t = .ok (f t) ∧ nm.category (f t) = cat) :
    ∃ c', rebinCatalog nm need reb c cat = (c', .ok ()) ∧
      get c' false true cat = (get c false false cat).map (Option.map f) ∧
      (∀ o l cat', ¬ (o = false ∧ l = true ∧ cat' = cat) → get c' o l cat' = get c o l cat') ∧
      c'.ortho = false ∧ c'.log = false := by
  obtain ⟨us, hus⟩ := exists_map_some hfull
  have hadd : ∀ (us : List τ) (c : Cat τ L), c.ortho = false → c.log = true →
      (∀ t ∈ us, reb t = .ok (f t) ∧ nm.category (f t) = cat) →
      ∃ c', addLoop nm reb (us.map some) c = (c', .ok ()) ∧
        get c' false true cat = get c false true cat ++ us.map (fun t => some (f t)) ∧
        (∀ o l cat', ¬ (o = false ∧ l = true ∧ cat' = cat) → get c' o l cat' = get c o l cat') ∧
        c'.ortho = false ∧ c'.log = true := by
    intro us
    induction us with
    | nil => intro c ho hl _; exact ⟨c, rfl, by simp, fun _ _ _ _ => rfl, ho, hl⟩
    | cons t ts ih =>
      intro c ho hl hf
      obtain ⟨h1, h2⟩ := hf t List.mem_cons_self
      have ha : add nm c (f t) = (put c false true cat (get c false true cat ++ [some (f t)]), .ok ()) := by
        unfold add
        rw [h2, if_neg hne, ho, hl]
      obtain ⟨c2, e2, g2, f2, o2, l2⟩ := ih (put c false true cat (get c false true cat ++ [some (f t)])) ho hl
        (fun t ht => hf t (List.mem_cons_of_mem _ ht))
      refine ⟨c2, ?_, ?_, ?_, o2, l2⟩
      · rw [List.map_cons]
        unfold addLoop
        simp only [h1, ha, andThen]
        exact e2
      · rw [g2, get_put, if_pos ⟨rfl, rfl, rfl⟩]; simp
      · intro o l cat' h; rw [f2 o l cat' h, get_put, if_neg h]
  unfold rebinCatalog
  simp only
  set c1 : Cat τ L := { c with log := true } with hc1
  have hget : ∀ o l cat', get c1 o l cat' = get c o l cat' := fun _ _ _ => rfl
  have ho1 : c1.ortho = false := ho
  rw [ho1, if_neg (by rw [count_eq, hget, hlog]; simp), hget, hus]
  obtain ⟨c2, e2, g2, f2, o2, l2⟩ := hadd us c1 ho1 rfl (fun t ht => hf t (by rw [hus]; exact List.mem_map_of_mem ht))
  rw [e2]
  refine ⟨{ c2 with log := false }, rfl, ?_, f2, o2, rfl⟩
  rw [map_some_map]
  show get c2 false true cat = _
  rw [g2, hget, hlog]; rfl

/-- Removing one orthogonalised template. -/
theorem dropOrtho_spec {c : Cat τ L} {cat : String} {i : Nat} (hi : i < (get c true true cat).length) :
    ∃ c', dropOne c cat true true (i : Int) = (c', .ok ()) ∧ c'.ortho = c.ortho ∧ c'.log = c.log ∧
      (c'.lsf = c.lsf ∨ c'.lsf = none) ∧
      (∀ o l cat', ¬ (o = true ∧ l = true ∧ cat' = cat) → get c' o l cat' = get c o l cat') ∧
      (∀ j, slot c' true true cat j = if j = i then none else slot c true true cat j) ∧
      ((get c' true true cat).length = (get c true true cat).length ∧ (∃ t, some t ∈ get c' true true cat) ∨
        get c' true true cat = []) := by
  unfold dropOne
  rw [if_pos ⟨by omega, by omega⟩]
  simp only [Int.toNat_natCast]
  set c1 := put c true true cat ((get c true true cat).set i none) with hc1
  have hs1 : ∀ j, slot c1 true true cat j = if j = i then none else slot c true true cat j := by
    intro j
    rw [hc1, slot_put, if_pos ⟨rfl, rfl, rfl⟩, getD_set _ _ _ _ hi]; rfl
  have hf1 : ∀ o l cat', ¬ (o = true ∧ l = true ∧ cat' = cat) → get c1 o l cat' = get c o l cat' := by
    intro o l cat' h; rw [hc1, get_put, if_neg h]
  split_ifs with hz
  · have hcl : clearAll c1 cat true true = clearAllOrtho c1 cat true := by unfold clearAll; rw [if_pos rfl]
    rw [hcl]
    refine ⟨_, rfl, (clearAllOrtho_mode _ _ _).1, (clearAllOrtho_mode _ _ _).2, ?_, ?_, ?_, ?_⟩
    · unfold clearAllOrtho
      split_ifs
      · exact Or.inl rfl
      · exact Or.inr rfl
      · exact Or.inl rfl
    · intro o l cat' h; rw [clearAllOrtho_get, if_neg h, hf1 o l cat' h]
    · intro j
      rw [← hs1 j, nonNull_zero.1 hz j]
      unfold slot; rw [clearAllOrtho_get, if_pos ⟨rfl, rfl, rfl⟩]; rfl
    · right; rw [clearAllOrtho_get, if_pos ⟨rfl, rfl, rfl⟩]
  · refine ⟨c1, rfl, rfl, rfl, Or.inl rfl, hf1, hs1, Or.inl ⟨?_, ?_⟩⟩
    · rw [hc1, get_put, if_pos ⟨rfl, rfl, rfl⟩, List.length_set]
    · rw [nonNull_zero] at hz
      push Not at hz
      obtain ⟨j, hj⟩ := hz
      obtain ⟨t, ht⟩ := Option.ne_none_iff_exists'.1 hj
      refine ⟨t, ?_⟩
      unfold slot at ht
      rw [List.getD_eq_getElem?_getD] at ht
      cases e : (get c1 true true cat)[j]? with
      | none => rw [e] at ht; cases ht
      | some x =>
        rw [e] at ht
        simp only [Option.getD_some] at ht
        subst ht
        exact List.mem_of_getElem? e

/-- Specification: a list that is empty, or of length `n` with a template. -/
def EmptyOr (n : Nat) (v : List (Option τ)) : Prop := v = [] ∨ v.length = n ∧ ∃ t, some t ∈ v

/-- Replacing one log-sampled template in a list without null. -/
theorem set_log {nm : Names τ} {c : Cat τ L} {t : τ} {cat : String} {i : Nat} {vs : List τ} (hc : nm.category t = cat)
    (hne : cat ≠ "") (ho : c.ortho = false) (hl : c.log = true) (hv : get c false true cat = vs.map some) (hi : i < vs.length)
    (hv1 : EmptyOr vs.length (get c true true cat)) :
    ∃ c', setTemplate nm c t i = (c', .ok ()) ∧ get c' false true cat = (vs.set i t).map some ∧
      (∀ o l cat', ¬ (l = true ∧ cat' = cat) → get c' o l cat' = get c o l cat') ∧
      (∀ j, slot c' true true cat j = if j = i then none else slot c true true cat j) ∧
      EmptyOr vs.length (get c' true true cat) ∧ c'.ortho = false ∧ c'.log = true ∧ (c'.lsf = c.lsf ∨ c'.lsf = none) := by
  have hcnt : ¬ count c cat false true = 0 := by
    rw [count_zero, hv, List.map_eq_nil_iff]
    intro e; rw [e] at hi; exact absurd hi (by simp)
  have hset : (vs.map some).set i none = (vs.map some).set i none := rfl
  -- the state after the clearing of the log-sampled template
  have hclear : ∃ c2, clearOne c cat false true (i : Int) = (c2, .ok ()) ∧
      (vs.length = 1 ∧ get c2 false true cat = [] ∨ vs.length ≠ 1 ∧ get c2 false true cat = (vs.map some).set i none) ∧
      (∀ o l cat', ¬ (l = true ∧ cat' = cat) → get c2 o l cat' = get c o l cat') ∧
      (∀ j, slot c2 true true cat j = if j = i then none else slot c true true cat j) ∧
      EmptyOr vs.length (get c2 true true cat) ∧ c2.ortho = false ∧ c2.log = true ∧ (c2.lsf = c.lsf ∨ c2.lsf = none) := by
    have hdrop : ∃ c1, dropOne c cat false true (i : Int) = (c1, .ok ()) ∧
        (vs.length = 1 ∧ get c1 false true cat = [] ∧ get c1 true true cat = [] ∨
          vs.length ≠ 1 ∧ get c1 false true cat = (vs.map some).set i none ∧ get c1 true true cat = get c true true cat) ∧
        (∀ o l cat', ¬ (l = true ∧ cat' = cat) → get c1 o l cat' = get c o l cat') ∧ c1.ortho = false ∧ c1.log = true ∧
        (c1.lsf = c.lsf ∨ c1.lsf = none) := by
      unfold dropOne
      rw [hv, if_pos ⟨by omega, by rw [List.length_map]; omega⟩]
      simp only [Int.toNat_natCast]
      set c1 := put c false true cat ((vs.map some).set i none) with hc1
      have hg1 : get c1 false true cat = (vs.map some).set i none := by rw [hc1, get_put, if_pos ⟨rfl, rfl, rfl⟩]
      have hf1 : ∀ o l cat', ¬ (o = false ∧ l = true ∧ cat' = cat) → get c1 o l cat' = get c o l cat' := by
        intro o l cat' h; rw [hc1, get_put, if_neg h]
      have hlen : (get c1 false true cat).length = vs.length := by rw [hg1]; simp
      have hzero : nonNull c1 cat false true = 0 ↔ vs.length = 1 := by
        rw [nonNull_zero]
        constructor
        · intro q
          by_contra h1
          have hslot : ∀ j, j ≠ i → j < vs.length → slot c1 false true cat j ≠ none := by
            intro j hj hjl
            unfold slot
            rw [hg1, getD_set _ _ _ _ (by simpa using hi), if_neg hj, List.getD_eq_getElem?_getD, List.getElem?_map,
              List.getElem?_eq_getElem hjl]
            simp
          by_cases hi0 : i = 0
          · exact hslot 1 (by omega) (by omega) (q 1)
          · exact hslot 0 (by omega) (by omega) (q 0)
        · intro h1 j
          unfold slot
          rw [hg1, getD_set _ _ _ _ (by simpa using hi)]
          split_ifs with hj
          · rfl
          · rw [List.getD_eq_getElem?_getD, List.getElem?_eq_none (by simp; omega)]; rfl
      split_ifs with hz
      · have h1 := hzero.1 hz
        have hcl : clearAll c1 cat false true = clearAllLog c1 cat := by
          unfold clearAll; rw [if_neg (by simp), if_pos rfl]
        have hnn : get c1 false true cat ≠ [] := by intro e; rw [e] at hlen; simp at hlen; omega
        have hm := clearAll_mode c1 cat false true
        rw [hcl] at hm ⊢
        refine ⟨_, rfl, Or.inl ⟨h1, ?_, ?_⟩, ?_, hm.1.trans ho, hm.2.trans hl, ?_⟩
        · rw [clearAllLog_get, if_pos ⟨hnn, rfl, rfl⟩]
        · rw [clearAllLog_get, if_pos ⟨hnn, rfl, rfl⟩]
        · intro o l cat' h; rw [clearAllLog_get, if_neg (by tauto), hf1 _ _ _ (by tauto)]
        · unfold clearAllLog clearAllOrtho
          split_ifs
          · exact Or.inl rfl
          · exact Or.inl rfl
          · exact Or.inr rfl
          · exact Or.inl rfl
      · exact ⟨c1, rfl, Or.inr ⟨fun h => hz (hzero.2 h), hg1, hf1 _ _ _ (by simp)⟩, fun o l cat' h => hf1 _ _ _ (by tauto),
          ho, hl, Or.inl rfl⟩
    obtain ⟨c1, e1, hcase, hf1, ho1, hl1, hs1⟩ := hdrop
    unfold clearOne
    rw [if_neg (by simp), if_pos rfl]
    unfold clearOneLog
    rw [if_neg hcnt, e1]
    simp only [andThen]
    unfold clearOneOrtho
    by_cases h11 : get c1 true true cat = []
    · rw [if_pos (count_zero.2 h11)]
      have hsl : ∀ j, slot c1 true true cat j = none := slot_nil h11
      refine ⟨c1, rfl, hcase.imp (fun h => ⟨h.1, h.2.1⟩) (fun h => ⟨h.1, h.2.1⟩), hf1, ?_, Or.inl h11, ho1, hl1, hs1⟩
      intro j
      rw [hsl]
      split_ifs with hj
      · rfl
      · rcases hcase with ⟨h1, _, _⟩ | ⟨_, _, h⟩
        · rcases hv1 with h | ⟨h, _⟩
          · exact (slot_nil h j).symm
          · unfold slot; rw [List.getD_eq_getElem?_getD, List.getElem?_eq_none (by omega)]; rfl
        · exact (slot_nil (h.symm.trans h11) j).symm
    · rw [if_neg (fun e => h11 (count_zero.1 e))]
      have h2 : get c1 true true cat = get c true true cat := by
        rcases hcase with ⟨_, _, h⟩ | ⟨_, _, h⟩
        · exact absurd h h11
        · exact h
      have hlen : (get c1 true true cat).length = vs.length := by
        rw [h2]; rcases hv1 with h | ⟨h, _⟩
        · rw [h2] at h11; exact absurd h h11
        · exact h
      obtain ⟨c2, e2, q1, q2, q3, q4, q5, q6⟩ := dropOrtho_spec (c := c1) (cat := cat) (i := i) (by omega)
      refine ⟨c2, e2, ?_, ?_, ?_, ?_, q1.trans ho1, q2.trans hl1, ?_⟩
      · rw [q4 _ _ _ (by simp)]
        exact hcase.imp (fun h => ⟨h.1, h.2.1⟩) (fun h => ⟨h.1, h.2.1⟩)
      · intro o l cat' h; rw [q4 _ _ _ (by tauto), hf1 _ _ _ h]
      · intro j; rw [q5 j]; unfold slot; rw [h2]
      · rcases q6 with ⟨h, h'⟩ | h
        · exact Or.inr ⟨h.trans hlen, h'⟩
        · exact Or.inl h
      · rcases q3 with h | h
        · rw [h]; exact hs1
        · exact Or.inr h
  obtain ⟨c2, e2, hcase, hf2, hsl2, hv2, ho2, hl2, hs2⟩ := hclear
  unfold setTemplate
  rw [hc, ho, hl, e2]
  simp only [andThen]
  rw [ho2, hl2]
  rcases hcase with ⟨h1, hg2⟩ | ⟨h1, hg2⟩
  · rw [if_pos (count_zero.2 hg2)]
    unfold add
    rw [hc, if_neg hne, ho2, hl2, hg2]
    refine ⟨_, rfl, ?_, ?_, ?_, ?_, ho2, hl2, hs2⟩
    · rw [get_put, if_pos ⟨rfl, rfl, rfl⟩]
      have : i = 0 := by omega
      subst this
      obtain ⟨a, rfl⟩ := List.length_eq_one_iff.1 h1
      rfl
    · intro o l cat' h; rw [get_put, if_neg (by tauto), hf2 _ _ _ h]
    · intro j; rw [slot_put, if_neg (by simp)]; exact hsl2 j
    · rw [get_put, if_neg (by simp)]; exact hv2
  · have hlen : (get c2 false true cat).length = vs.length := by rw [hg2]; simp
    rw [if_neg (by rw [count_eq]; omega), if_pos ⟨by omega, by omega⟩]
    refine ⟨_, rfl, ?_, ?_, ?_, ?_, ho2, hl2, hs2⟩
    · rw [get_put, if_pos ⟨rfl, rfl, rfl⟩, hg2, Int.toNat_natCast, List.set_set, List.map_set]
    · intro o l cat' h; rw [get_put, if_neg (by tauto), hf2 _ _ _ h]
    · intro j; rw [slot_put, if_neg (by simp)]; exact hsl2 j
    · rw [get_put, if_neg (by simp)]; exact hv2

theorem find_name {nm : Names τ} {us : List τ} (hnd : (us.map nm.name).Nodup) {i : Nat} {u : τ} (hu : us[i]? = some u) :
    us.find? (fun t => decide (nm.name t = nm.name u)) = some u := by
  induction us generalizing i with
  | nil => cases hu
  | cons x xs ih =>
    rw [List.map_cons, List.nodup_cons] at hnd
    by_cases hx : nm.name x = nm.name u
    · have : x = u := by
        cases i with
        | zero => exact Option.some.inj hu
        | succ i =>
          exfalso; apply hnd.1; rw [hx]
          exact List.mem_map_of_mem (List.mem_of_getElem? (by simpa using hu))
      subst this; simp
    · rw [List.find?_cons_of_neg (by simpa using hx)]
      cases i with
      | zero => exact absurd (congrArg nm.name (Option.some.inj hu)) hx
      | succ i => exact ih hnd.2 (by simpa using hu)

theorem filterMap_map_some (us : List τ) : (us.map some).filterMap id = us := by
  induction us with
  | nil => rfl
  | cons x xs ih => simp

/-- **C54, log sampling again.** When a category has log-sampled templates, with the names of the original ones, the call
replaces exactly those that no longer fit by a new log sampling of the original template of the same position; their
orthogonalised versions are removed, and nothing else changes. -/
theorem C54_rebin_again (nm : Names τ) (need : τ → Bool) (reb : τ → Res τ) (f : τ → τ) (c : Cat τ L) (cat : String)
    (hne : cat ≠ "") (ho : c.ortho = false) (us vs : List τ) (hu : get c false false cat = us.map some)
    (hv : get c false true cat = vs.map some) (hv0 : vs ≠ []) (hname : vs.map nm.name = us.map nm.name)
    (hnd : (us.map nm.name).Nodup) (h11 : EmptyOr vs.length (get c true true cat))
    (hf : ∀ u ∈ us, reb u = .ok (f u) ∧ nm.category (f u) = cat) :
    ∃ c', rebinCatalog nm need reb c cat = (c', .ok ()) ∧
      get c' false true cat = (List.zipWith (fun u v => if need v = true then f u else v) us vs).map some ∧
      (∀ (j : Nat) v, vs[j]? = some v → slot c' true true cat j = if need v = true then none else slot c true true cat j) ∧
      EmptyOr vs.length (get c' true true cat) ∧
      (∀ o l cat', ¬ (l = true ∧ cat' = cat) → get c' o l cat' = get c o l cat') ∧
      c'.ortho = false ∧ c'.log = false ∧ (c'.lsf = c.lsf ∨ c'.lsf = none) := by
  have hlen : us.length = vs.length := by
    have := congrArg List.length hname; simpa using this.symm
  set F := List.zipWith (fun u v => if need v = true then f u else v) us vs with hF
  have hFlen : F.length = vs.length := by rw [hF, List.length_zipWith, hlen, Nat.min_self]
  have hloop : ∀ (n i : Nat) (c1 : Cat τ L), i + n = vs.length → c1.ortho = false → c1.log = true →
      get c1 false false cat = us.map some → get c1 false true cat = (F.take i ++ vs.drop i).map some →
      EmptyOr vs.length (get c1 true true cat) →
      ∃ c', rebinLoop nm need reb cat n i c1 = (c', .ok ()) ∧ get c' false true cat = F.map some ∧
        (∀ (j : Nat) v, vs[j]? = some v →
          slot c' true true cat j = if i ≤ j ∧ need v = true then none else slot c1 true true cat j) ∧
        EmptyOr vs.length (get c' true true cat) ∧
        (∀ o l cat', ¬ (l = true ∧ cat' = cat) → get c' o l cat' = get c1 o l cat') ∧
        c'.ortho = false ∧ c'.log = true ∧ (c'.lsf = c1.lsf ∨ c'.lsf = none) := by
    intro n
    induction n with
    | zero =>
      intro i c1 hi ho1 hl1 hb hg h11
      refine ⟨c1, rfl, ?_, ?_, h11, fun _ _ _ _ => rfl, ho1, hl1, Or.inl rfl⟩
      · rw [hg, List.take_of_length_le (by omega), List.drop_of_length_le (by omega), List.append_nil]
      · intro j v hj
        have : j < vs.length := (List.getElem?_eq_some_iff.1 hj).1
        rw [if_neg (by omega)]
    | succ n ih =>
      intro i c1 hi ho1 hl1 hb hg h11
      have hiv : i < vs.length := by omega
      have hgi : (F.take i ++ vs.drop i)[i]? = some vs[i] := by
        rw [List.getElem?_append_right (by rw [List.length_take]; omega), List.length_take,
          show i - min i F.length = 0 by omega, List.getElem?_drop]
        simp [hiv]
      have hlen1 : (F.take i ++ vs.drop i).length = vs.length := by
        rw [List.length_append, List.length_take, List.length_drop]; omega
      have hFi : F[i]'(by omega) = if need vs[i] = true then f (us[i]'(by omega)) else vs[i] := by
        simp only [hF, List.getElem_zipWith]
      have hget : getTemplate c1 cat (i : Int) c1.ortho c1.log = .ok (some vs[i]) := by
        rw [C41_get, ho1, hl1, count_eq, hg, if_pos ⟨by omega, by rw [List.length_map]; omega⟩, Int.toNat_natCast]
        unfold slot
        rw [hg, List.getD_eq_getElem?_getD, List.getElem?_map, hgi]; rfl
      have htake : F.take (i + 1) = F.take i ++ [F[i]'(by omega)] := by rw [List.take_succ, List.getElem?_eq_getElem (by omega)]; rfl
      have hdrop : vs.drop i = vs[i] :: vs.drop (i + 1) := List.drop_eq_getElem_cons hiv
      unfold rebinLoop
      rw [hget]
      simp only
      by_cases hn : need vs[i] = true
      · rw [if_neg (by rw [hn]; simp)]
        have hui : us[i]? = some (us[i]'(by omega)) := List.getElem?_eq_getElem (by omega)
        have hnm : nm.name vs[i] = nm.name (us[i]'(by omega)) := by
          have := congrArg (fun l => l[i]?) hname
          simp only [List.getElem?_map, List.getElem?_eq_getElem hiv, hui, Option.map_some, Option.some.injEq] at this
          exact this
        have hby : getByName nm c1 (nm.name vs[i]) c1.ortho false [cat] = .ok (us[i]'(by omega)) := by
          rw [C41_by_name, ho1]
          · have : templateList c1 false false [cat] = us.map some := by unfold templateList; simp [hb]
            rw [this, filterMap_map_some, hnm, find_name hnd hui]
          · intro cat' h
            rw [List.mem_singleton] at h
            rw [h, ho1, hb]; simp
        rw [hby]
        simp only
        obtain ⟨hr, hcat⟩ := hf _ (List.mem_of_getElem? hui)
        rw [hr]
        simp only
        obtain ⟨c2, e2, g2, f2, s2, v2, o2, l2, w2⟩ := set_log (c := c1) (i := i) hcat hne ho1 hl1 hg (by omega)
          (by rw [hlen1]; exact h11)
        rw [e2]
        simp only [andThen]
        rw [hlen1] at v2
        obtain ⟨c3, e3, g3, s3, v3, f3, o3, l3, w3⟩ := ih (i + 1) c2 (by omega) o2 l2 (by rw [f2 _ _ _ (by simp), hb])
          (by
            rw [g2, htake, hFi, if_pos hn, hdrop]
            congr 1
            rw [List.set_append_right _ _ (by rw [List.length_take]; omega), List.length_take,
              show i - min i F.length = 0 by omega]
            simp only [List.set_cons_zero, List.append_assoc, List.singleton_append]) v2
        refine ⟨c3, e3, g3, ?_, v3, ?_, o3, l3, ?_⟩
        · intro j v hj
          rw [s3 j v hj, s2]
          by_cases hji : j = i
          · subst hji
            rw [List.getElem?_eq_getElem hiv, Option.some.injEq] at hj
            subst hj
            rw [if_neg (by omega), if_pos rfl, if_pos ⟨le_refl _, hn⟩]
          · rw [if_neg hji]
            by_cases h : i + 1 ≤ j ∧ need v = true
            · rw [if_pos h, if_pos ⟨by omega, h.2⟩]
            · rw [if_neg h, if_neg (by rintro ⟨q, q'⟩; exact h ⟨by omega, q'⟩)]
        · intro o l cat' h; rw [f3 _ _ _ h, f2 _ _ _ h]
        · rcases w3 with h | h
          · rw [h]; exact w2
          · exact Or.inr h
      · rw [if_pos (by simpa using hn)]
        obtain ⟨c3, e3, g3, s3, v3, f3, o3, l3, w3⟩ := ih (i + 1) c1 (by omega) ho1 hl1 hb
          (by rw [hg, htake, hFi, if_neg hn, hdrop]; simp) h11
        refine ⟨c3, e3, g3, ?_, v3, f3, o3, l3, w3⟩
        intro j v hj
        rw [s3 j v hj]
        by_cases h : i + 1 ≤ j ∧ need v = true
        · rw [if_pos h, if_pos ⟨by omega, h.2⟩]
        · rw [if_neg h, if_neg]
          rintro ⟨q, q'⟩
          have hji : j = i := by
            by_contra hne'
            exact h ⟨by omega, q'⟩
          subst hji
          rw [List.getElem?_eq_getElem hiv, Option.some.injEq] at hj
          subst hj; exact hn q'
  unfold rebinCatalog
  simp only
  set c1 : Cat τ L := { c with log := true } with hc1
  have hget : ∀ o l cat', get c1 o l cat' = get c o l cat' := fun _ _ _ => rfl
  have ho1 : c1.ortho = false := ho
  have hcnt : count c1 cat false true = vs.length := by rw [count_eq, hget, hv, List.length_map]
  rw [ho1, hcnt, if_pos (List.length_pos_iff.2 hv0)]
  obtain ⟨c2, e2, g2, s2, v2, f2, o2, l2, w2⟩ := hloop vs.length 0 c1 (by omega) ho1 rfl hu (by rw [hget, hv]; simp) h11
  rw [e2]
  refine ⟨{ c2 with log := false }, rfl, g2, ?_, v2, f2, o2, rfl, w2⟩
  intro j v hj
  show slot c2 true true cat j = _
  rw [s2 j v hj]
  by_cases hn : need v = true
  · rw [if_pos ⟨by omega, hn⟩, if_pos hn]
  · rw [if_neg (by tauto), if_neg hn]; rfl

/-- **C54, log sampling again leaves no misfit.** When a new log sampling fits, no log-sampled template of the category is
left that does not. -/
theorem C54_rebin_fits (nm : Names τ) (need : τ → Bool) (reb : τ → Res τ) (f : τ → τ) (c : Cat τ L) (cat : String)
    (hne : cat ≠ "") (ho : c.ortho = false) (us vs : List τ) (hu : get c false false cat = us.map some)
    (hv : get c false true cat = vs.map some) (hv0 : vs ≠ []) (hname : vs.map nm.name = us.map nm.name)
    (hnd : (us.map nm.name).Nodup) (h11 : EmptyOr vs.length (get c true true cat))
    (hf : ∀ u ∈ us, reb u = .ok (f u) ∧ nm.category (f u) = cat) (hfit : ∀ u ∈ us, need (f u) = false) (t : τ)
    (ht : some t ∈ get (rebinCatalog nm need reb c cat).1 false true cat) : need t = false := by
  obtain ⟨c', e, g, -⟩ := C54_rebin_again nm need reb f c cat hne ho us vs hu hv hv0 hname hnd h11 hf
  rw [e, g] at ht
  obtain ⟨t', ht', h⟩ := List.mem_map.1 ht
  cases h
  obtain ⟨j, hj, rfl⟩ := List.getElem_of_mem ht'
  rw [List.getElem_zipWith]
  rw [List.length_zipWith] at hj
  by_cases hn : need (vs[j]'(by omega)) = true
  · rw [if_pos hn]; exact hfit _ (List.getElem_mem _)
  · rw [if_neg hn]; simpa using hn

/-- **C54, log sampling then orthogonalisation.** When the templates that are log-sampled again are the first ones of the
list (or all, or none), the state left is one from which the orthogonalisation brings all the lists up to date. -/
theorem C54_rebin_prefix (nm : Names τ) (need : τ → Bool) (reb : τ → Res τ) (f : τ → τ) (g : L → τ → τ) (c : Cat τ L)
    (cat : String) (hok : OkCat nm g c cat) (ho : c.ortho = false) (us vs : List τ) (hu : get c false false cat = us.map some)
    (hv : get c false true cat = vs.map some) (hv0 : vs ≠ []) (hname : vs.map nm.name = us.map nm.name)
    (hnd : (us.map nm.name).Nodup) (h11 : EmptyOr vs.length (get c true true cat))
    (hf : ∀ u ∈ us, reb u = .ok (f u) ∧ nm.category (f u) = cat) (m : Nat)
    (hpre : ∀ (j : Nat) v, vs[j]? = some v → (need v = true ↔ j < m)) :
    OkCat nm g (rebinCatalog nm need reb c cat).1 cat := by
  obtain ⟨c', e, g1, s1, v1, f1, o1, l1, w1⟩ := C54_rebin_again nm need reb f c cat hok.ne ho us vs hu hv hv0 hname hnd h11 hf
  rw [e]
  have hlen : us.length = vs.length := by
    have := congrArg List.length hname; simpa using this.symm
  set F := List.zipWith (fun u v => if need v = true then f u else v) us vs with hF
  have hFlen : F.length = vs.length := by rw [hF, List.length_zipWith, hlen, Nat.min_self]
  have hcat : ∀ v ∈ vs, nm.category v = cat := fun v h => hok.category true v (by rw [hv]; exact List.mem_map_of_mem h)
  refine ⟨hok.ne, ?_, ?_, ?_, ?_, ?_⟩
  · intro s
    cases s
    · rw [f1 _ _ _ (by simp)]; exact hok.full false
    · rw [g1]; simp
  · intro s t ht
    cases s
    · rw [f1 _ _ _ (by simp)] at ht; exact hok.category false t ht
    · rw [g1] at ht
      obtain ⟨t', ht', h⟩ := List.mem_map.1 ht
      cases h
      obtain ⟨j, hj, rfl⟩ := List.getElem_of_mem ht'
      simp only [hF, List.getElem_zipWith]
      split_ifs
      · exact (hf _ (List.getElem_mem _)).2
      · exact hcat _ (List.getElem_mem _)
  · intro h
    rw [f1 _ _ _ (by simp), hu, List.map_eq_nil_iff] at h
    rw [h] at hlen
    exact absurd (List.length_eq_zero_iff.1 hlen.symm) hv0
  · intro h
    rw [f1 _ _ _ (by simp)] at h
    have h2 := hok.both h
    rcases v1 with q | ⟨_, t, ht⟩
    · exact q
    · exfalso
      obtain ⟨j, hj, e⟩ := List.getElem_of_mem ht
      have hslot : slot c' true true cat j = some t := by
        unfold slot; rw [List.getD_eq_getElem?_getD, List.getElem?_eq_getElem hj, e]; rfl
      have hold : slot c true true cat j = none := slot_nil h2 j
      by_cases hjv : j < vs.length
      · rw [s1 j _ (List.getElem?_eq_getElem hjv), hold, ite_self] at hslot; cases hslot
      · rename_i hl _
        omega
  · intro w hw
    have hw' : c.lsf = some w := by
      rcases w1 with h | h
      · rw [← h]; exact hw
      · rw [h] at hw; cases hw
    obtain ⟨h1, h2⟩ := hok.made w hw'
    refine ⟨by rw [f1 _ _ _ (by simp), f1 _ _ _ (by simp)]; exact h1, ?_⟩
    rcases v1 with q | ⟨hl, t, ht⟩
    · exact Or.inl q
    right
    -- some template is left in the new list, so it was in the old one
    obtain ⟨j, hj, e⟩ := List.getElem_of_mem ht
    have hjv : j < vs.length := by omega
    have hslot : slot c' true true cat j = some t := by
      unfold slot; rw [List.getD_eq_getElem?_getD, List.getElem?_eq_getElem hj, e]; rfl
    have hj2 := s1 j _ (List.getElem?_eq_getElem hjv)
    rw [hslot] at hj2
    have hjn : ¬ need vs[j] = true := by
      intro h; rw [if_pos h] at hj2; cases hj2
    rw [if_neg hjn] at hj2
    have hmj : m ≤ j := by
      by_contra h; exact hjn ((hpre j _ (List.getElem?_eq_getElem hjv)).2 (by omega))
    have h11' : get c true true cat ≠ [] := by intro h; rw [slot_nil h] at hj2; cases hj2
    obtain ⟨k, hk, hold⟩ := h2.resolve_left h11'
    rw [hv, List.length_map] at hk
    have holdlen : (get c true true cat).length = vs.length := by rw [hold, hv]; simp; omega
    have hkj : k ≤ j := by
      by_contra h
      have : slot c true true cat j = none := by
        unfold slot
        rw [hold, List.getD_eq_getElem?_getD, List.getElem?_append_left (by simp; omega), List.getElem?_replicate, if_pos (by omega)]
        rfl
      rw [this] at hj2; cases hj2
    refine ⟨max m k, by rw [g1, List.length_map]; omega, ?_⟩
    apply List.ext_getElem?
    intro i
    by_cases hi : i < vs.length
    swap
    · rw [List.getElem?_eq_none (by show (get c' true true cat).length ≤ i; omega), List.getElem?_eq_none]
      show (List.replicate (max m k) none ++ ((get c' false true cat).drop (max m k)).map (Option.map (g w))).length ≤ i
      rw [g1]; simp; omega
    have hnew : ∀ i (hi : i < vs.length), (get c' true true cat)[i]? = some (slot c' true true cat i) := by
      intro i hi
      unfold slot
      rw [List.getD_eq_getElem?_getD, List.getElem?_eq_getElem (by omega)]; rfl
    rw [hnew i hi, s1 i _ (List.getElem?_eq_getElem hi)]
    have hF' : ∀ i (hi : i < vs.length), m ≤ i → F[i]? = some vs[i] := by
      intro i hi hmi
      rw [List.getElem?_eq_getElem (by omega)]
      simp only [hF, List.getElem_zipWith]
      rw [if_neg (fun h => absurd ((hpre i _ (List.getElem?_eq_getElem hi)).1 h) (by omega))]
    by_cases hmk : i < max m k
    · rw [List.getElem?_append_left (by simpa using hmk), List.getElem?_replicate, if_pos hmk]
      split_ifs with hn
      · rfl
      · have : ¬ i < m := fun h => hn ((hpre i _ (List.getElem?_eq_getElem hi)).2 h)
        unfold slot
        rw [hold, List.getD_eq_getElem?_getD, List.getElem?_append_left (by simp; omega), List.getElem?_replicate, if_pos (by omega)]
        rfl
    · have hn : ¬ need vs[i] = true := fun h => hmk (by have := (hpre i _ (List.getElem?_eq_getElem hi)).1 h; omega)
      rw [if_neg hn, List.getElem?_append_right (by simp; omega), List.length_replicate, g1, List.getElem?_map,
        List.getElem?_drop, show max m k + (i - max m k) = i by omega, List.getElem?_map, hF' i hi (by omega)]
      unfold slot
      rw [hold, List.getD_eq_getElem?_getD, List.getElem?_append_right (by simp; omega), List.length_replicate, hv,
        List.getElem?_map, List.getElem?_drop, show k + (i - k) = i by omega, List.getElem?_map,
        List.getElem?_eq_getElem hi]
      rfl

/-! ## Concrete runs -/

/-- Orthogonalisation of the examples: the LSF is written in the mark. -/
def gT (w : Nat) (t : T) : T := (t.1, t.2.1, t.2.2 + 100 * w)

/-- Log sampling of the examples. -/
def fT (t : T) : T := (t.1, t.2.1, t.2.2 + 10)

/-- Two galaxy templates and a star. -/
def exOrth : Cat T Nat := run nmT (make false) [.add ("a", "galaxy", 0), .add ("b", "galaxy", 1), .add ("s", "star", 2)]

def orthT (w : Nat) (t : T) : Res T := .ok (gT w t)

-- the hypotheses of `C54_all` hold for the example
example : ∀ cat ∈ ["galaxy", "star"], OkCat nmT gT exOrth cat ∧ get exOrth true false cat = [] ∧ get exOrth false false cat ≠ [] ∧
    ∀ w s t, some t ∈ get exOrth false s cat → orthT w t = .ok (gT w t) ∧ nmT.category (gT w t) = cat := by
  have hg : get exOrth false false "galaxy" = [some ("a", "galaxy", 0), some ("b", "galaxy", 1)] := by decide +kernel
  have hs : get exOrth false false "star" = [some ("s", "star", 2)] := by decide +kernel
  have hn : ∀ o l cat, (o, l) ≠ (false, false) → cat ∈ ["galaxy", "star"] → get exOrth o l cat = [] := by
    intro o l cat h hc
    simp only [List.mem_cons, List.not_mem_nil, or_false] at hc
    rcases hc with rfl | rfl <;> cases o <;> cases l <;> first | (exact absurd rfl h) | decide +kernel
  have hl : exOrth.lsf = none := by decide +kernel
  intro cat hc
  have hcat : ∀ s t, some t ∈ get exOrth false s cat → nmT.category t = cat := by
    intro s t ht
    cases s
    · simp only [List.mem_cons, List.not_mem_nil, or_false] at hc
      rcases hc with rfl | rfl
      · rw [hg] at ht; simp at ht; rcases ht with rfl | rfl <;> rfl
      · rw [hs] at ht; simp at ht; subst ht; rfl
    · rw [hn false true cat (by simp) hc] at ht; cases ht
  have hfull : ∀ s, none ∉ get exOrth false s cat := by
    intro s
    cases s
    · simp only [List.mem_cons, List.not_mem_nil, or_false] at hc
      rcases hc with rfl | rfl
      · rw [hg]; simp
      · rw [hs]; simp
    · rw [hn false true cat (by simp) hc]; simp
  refine ⟨⟨?_, hfull, hcat, fun _ => hn false true cat (by simp) hc, fun _ => hn true true cat (by simp) hc, ?_⟩,
    hn true false cat (by simp) hc, ?_, ?_⟩
  · simp only [List.mem_cons, List.not_mem_nil, or_false] at hc
    rcases hc with rfl | rfl <;> decide
  · intro w hw; rw [hl] at hw; cases hw
  · simp only [List.mem_cons, List.not_mem_nil, or_false] at hc
    rcases hc with rfl | rfl
    · rw [hg]; simp
    · rw [hs]; simp
  · intro w s t ht
    exact ⟨rfl, hcat s t ht⟩

-- three spectra with LSFs 1, 2, 2: the templates in use are those of the last LSF
example :
    let c := [1, 2, 2].foldl (fun c w => (orthogonalizeAll nmT orthT w ["galaxy", "star"] c).1) exOrth
    get c true false "galaxy" = [some ("a", "galaxy", 200), some ("b", "galaxy", 201)] ∧
    get c true false "star" = [some ("s", "star", 202)] := by
  decide +kernel

-- the hypotheses of `C54_rebin_again` hold for the full example catalogue
example : get exCat false false "galaxy" = [("a", "galaxy", 0), ("b", "galaxy", 1)].map some ∧
    get exCat false true "galaxy" = [("a", "galaxy", 10), ("b", "galaxy", 11)].map some ∧ exCat.ortho = false ∧
    EmptyOr 2 (get exCat true true "galaxy") := by
  refine ⟨by decide +kernel, by decide +kernel, by decide +kernel, Or.inr ⟨by decide +kernel, ("a", "galaxy", 30), ?_⟩⟩
  decide +kernel

/-- A catalogue log-sampled and orthogonalised with LSF 1. -/
def exReady : Cat T Nat :=
  (orthogonalizeAll nmT orthT 1 ["galaxy"] (rebinCatalog nmT (fun _ => false) (fun t => .ok (fT t)) exOrth "galaxy").1).1

-- the first template is log-sampled again: the orthogonalisation follows
example :
    let c := (rebinCatalog nmT (fun t => t.1 == "a") (fun t => .ok (fT (fT t))) exReady "galaxy").1
    get exReady true true "galaxy" = [some ("a", "galaxy", 110), some ("b", "galaxy", 111)] ∧
    get c true true "galaxy" = [none, some ("b", "galaxy", 111)] ∧
    get (orthogonalize nmT orthT 1 c "galaxy").1 true true "galaxy" = [some ("a", "galaxy", 120), some ("b", "galaxy", 111)] := by
  decide +kernel

/-- The restriction of `C54_rebin_prefix` is needed: when the second template only is log-sampled again, the loop stops at
the first one and the orthogonalised log-sampled list keeps a null template. -/
theorem C54_not_prefix :
    let c := (rebinCatalog nmT (fun t => t.1 == "b") (fun t => .ok (fT (fT t))) exReady "galaxy").1
    (orthogonalize nmT orthT 1 c "galaxy").2 = .ok () ∧
    get (orthogonalize nmT orthT 1 c "galaxy").1 true true "galaxy" = [some ("a", "galaxy", 110), none] := by
  decide +kernel

/-- The restriction of `C54_all` is needed: when a spectrum model is orthogonalised for the first time with a new LSF before
one that was orthogonalised with the old one, the templates of the latter are kept with the old LSF. -/
theorem C54_first_time_stale :
    let c := (orthogonalizeAll nmT orthT 2 ["star", "galaxy"] (orthogonalizeAll nmT orthT 1 ["galaxy"] exOrth).1)
    c.2 = .ok () ∧ get c.1 true false "star" = [some ("s", "star", 202)] ∧
    get c.1 true false "galaxy" = [some ("a", "galaxy", 100), some ("b", "galaxy", 101)] := by
  decide +kernel

/-- The restriction of `C54_rebin_again` is needed: of two templates of the same name, the second is replaced by the log
sampling of the first. -/
theorem C54_same_name :
    let c : Cat T Nat := run nmT (make false) [.add ("a", "galaxy", 0), .add ("a", "galaxy", 1)]
    let c1 := (rebinCatalog nmT (fun _ => true) (fun t => .ok (fT t)) c "galaxy").1
    get c1 false true "galaxy" = [some ("a", "galaxy", 10), some ("a", "galaxy", 11)] ∧
    get (rebinCatalog nmT (fun _ => true) (fun t => .ok (fT t)) c1 "galaxy").1 false true "galaxy" =
      [some ("a", "galaxy", 10), some ("a", "galaxy", 10)] := by
  decide +kernel

end
end TplCat
end Amazed
