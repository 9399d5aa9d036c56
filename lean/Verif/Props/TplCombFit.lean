import Verif.Props.TplCombProps

/-! # Template combination: the loops over the extinctions -/

set_option linter.unusedSectionVars false
set_option linter.unusedVariables false

namespace Amazed
namespace TplComb

open TplFit

variable {K : Type} [Field K] [LinearOrder K] [IsStrictOrderedRing K]

/-! ## Specification -/

/-- The IGM changes some sample of the fit: it is asked for and the first sample is not beyond its curves. -/
def Affected (op : Opt K) (P : Prob K) : Prop := op.igm = true ∧ P.rest.getD P.p 0 ≤ op.c.igmMax

/-- The dust coefficient reported for a dust index. -/
def coeffOf (op : Opt K) (k : Int) : K := if op.dust then op.ebmvValue k else -1

/-- `v` is the chi2 of the best amplitudes with dust index `k` and IGM index `i`. -/
def MinChi2 (op : Opt K) (P : Prob K) (k i : Int) (v : K) : Prop :=
  ∃ amps, P.IsMin (dustFun op k) (igmFun op i) amps ∧ P.chi2 (dustFun op k) (igmFun op i) amps = v

open Classical in
/-- The result of the fit: the table has the least chi2 over the amplitudes of each pair of extinction indices; the reported configuration is the first one, by
IGM index then by dust index, with the least chi2 of the table. -/
structure FitTable (op : Opt K) (P : Prob K) (r : Result K) : Prop where
  tlen : r.tbl.length = op.ebmv.length
  rlen : ∀ row ∈ r.tbl, row.length = op.meiksin.length
  entries : ∀ (a b : Nat) (k i : Int), op.ebmv[a]? = some k → op.meiksin[b]? = some i →
    ∃ e, get2 r.tbl a b = some e ∧ MinChi2 op P k i e.chi2 ∧ e.ebmv = some (coeffOf op k) ∧ (Affected op P → e.igm = i) ∧ (¬ Affected op P → e.igm = -1)
  best : ∃ (a b : Nat) (k i : Int) (e : Entry K) (q : Best K), op.ebmv[a]? = some k ∧ op.meiksin[b]? = some i ∧ get2 r.tbl a b = some e ∧ r.best = some q ∧
    q.chi2 = e.chi2 ∧ q.ebmv = coeffOf op k ∧ (Affected op P → q.igm = i) ∧ (¬ Affected op P → q.igm = -1) ∧
    ∀ (a' b' : Nat) (e' : Entry K), get2 r.tbl a' b' = some e' → q.chi2 ≤ e'.chi2 ∧ (b' < b ∨ b' = b ∧ a' < a → q.chi2 < e'.chi2)

/-! ## The components -/

/-- A component as an observation of the template fit. -/
def comp (P : Prob K) (mask : List Nat) (b : List K) : Obs K := ⟨P.rest, b, P.flux, P.err, mask, P.p, P.p + P.n - 1⟩

theorem slotsAt_of {op : Opt K} {P : Prob K} {mask : List Nat} {hd hi : Bool} {i mi k : Int} {slots : List (Slot K)} (hn : 0 < P.n)
    (hok : ∀ b ∈ P.bases, (comp P mask b).Ok)
    (h : List.Forall₂ (fun o s => ∃ kd, Rel op hd hi o kd i s ∧ dustFun op kd = dustFun op k) (P.bases.map (comp P mask)) slots)
    (hi' : ∀ j : Nat, P.p ≤ j → j < P.p + P.n → igmFun op i (P.rest.getD j 0) = igmFun op mi (P.rest.getD j 0)) :
    SlotsAt P (dustFun op k) (igmFun op mi) slots := by
  refine ⟨by rw [← h.length_eq]; simp, fun c s hc j h1 h2 => ?_⟩
  have hcl : c < slots.length := (List.getElem?_eq_some_iff.1 hc).1
  have hcb : c < P.bases.length := by rw [← h.length_eq] at hcl; simpa using hcl
  obtain ⟨kd, hr, hd'⟩ := h.get (by simpa using hcb) hcl
  have e1 : slots.get ⟨c, hcl⟩ = s := by
    rw [List.get_eq_getElem]
    exact (List.getElem?_eq_some_iff.1 hc).2
  have e2 : (P.bases.map (comp P mask)).get ⟨c, by simpa using hcb⟩ = comp P mask P.bases[c] := by simp
  rw [e1, e2] at hr
  have := (hr.agree (hok _ (List.getElem_mem hcb))).2.2.2.2.2 j h1 (by simp only [comp]; omega)
  rw [this]
  simp only [comp, hd']
  have e3 : P.bases.getD c [] = P.bases[c] := by rw [List.getD_eq_getElem?_getD, List.getElem?_eq_getElem hcb]; rfl
  rw [e3]
  simp only [List.getD_eq_getElem?_getD] at hi' ⊢
  rw [hi' j h1 h2]

theorem igm_unaffected {op : Opt K} {P : Prob K} (hs : P.rest.Pairwise (· ≤ ·)) (hlen : P.p + P.n ≤ P.rest.length) (hA : ¬ Affected op P) (i : Int) (j : Nat)
    (h1 : P.p ≤ j) (h2 : j < P.p + P.n) : igmFun op i (P.rest.getD j 0) = 1 := by
  unfold igmFun
  rw [if_neg]
  rintro ⟨g1, g2, g3⟩
  apply hA
  refine ⟨g1, le_trans ?_ g3⟩
  have l1 : P.p < P.rest.length := by omega
  have l2 : j < P.rest.length := by omega
  rw [List.getD_eq_getElem?_getD, List.getD_eq_getElem?_getD, List.getElem?_eq_getElem l1, List.getElem?_eq_getElem l2]
  simp only [Option.getD_some]
  rcases Nat.lt_or_eq_of_le h1 with h | h
  · exact List.pairwise_iff_getElem.1 hs _ _ l1 l2 h
  · subst h; exact le_rfl

theorem chi2_congr {P : Prob K} {d g g' : K → K} (h : ∀ j : Nat, P.p ≤ j → j < P.p + P.n → g (P.rest.getD j 0) = g' (P.rest.getD j 0)) (amps : Nat → K) :
    P.chi2 d g amps = P.chi2 d g' amps := by
  unfold Prob.chi2
  congr 1
  apply List.map_congr_left
  intro j hj
  rw [List.mem_range'_1] at hj
  unfold Prob.combo
  rw [h j hj.1 hj.2]

/-! ## The loop over the dust -/

/-- The entry of the configuration `(a, b)`; `A` tells whether the IGM is applied. -/
def Good (op : Opt K) (P : Prob K) (A : Bool) (a b : Nat) (e : Entry K) (k i : Int) : Prop :=
  op.ebmv[a]? = some k ∧ op.meiksin[b]? = some i ∧ MinChi2 op P k i e.chi2 ∧ e.ebmv = some (coeffOf op k) ∧ e.igm = if A then i else -1

/-- The reported amplitudes are the best ones with dust index `k` and IGM index `i`. -/
def LastOk (op : Opt K) (P : Prob K) (k i : Int) (l : Last K) : Prop :=
  l.amps.length = P.bases.length ∧ P.IsMin (dustFun op k) (igmFun op i) (fun c => l.amps.getD c 0)

/-- The state of the results before iteration `(kM, kE)`. -/
structure RInv (op : Opt K) (P : Prob K) (A : Bool) (kM kE : Nat) (r : Result K) : Prop where
  tlen : r.tbl.length = op.ebmv.length
  rlen : ∀ row ∈ r.tbl, row.length = op.meiksin.length
  done : ∀ a b : Nat, a < op.ebmv.length → Before kM kE a b → ∃ e k i, get2 r.tbl a b = some e ∧ Good op P A a b e k i
  best : (kM = 0 ∧ kE = 0 ∧ r.best = none) ∨ ∃ a b e k i q, a < op.ebmv.length ∧ Before kM kE a b ∧ get2 r.tbl a b = some e ∧ Good op P A a b e k i ∧
    r.best = some q ∧ q.chi2 = e.chi2 ∧ q.ebmv = coeffOf op k ∧ (q.igm = if A then i else -1) ∧
    ∀ (a' b' : Nat) e', a' < op.ebmv.length → Before kM kE a' b' → get2 r.tbl a' b' = some e' →
      q.chi2 ≤ e'.chi2 ∧ (Before b a a' b' → q.chi2 < e'.chi2)
  last : (kM = 0 ∧ kE = 0) ∨ ∃ a b k i l, op.ebmv[a]? = some k ∧ op.meiksin[b]? = some i ∧ r.last = some l ∧ LastOk op P k i l ∧
    ((0 < kE ∧ a + 1 = kE ∧ b = kM) ∨ (kE = 0 ∧ a + 1 = op.ebmv.length ∧ b + 1 = kM))

theorem lastOf_amps {sq : K → K} {norm : K} {n : Nat} {f : LsFit K} : (lastOf sq norm n f).amps.length = n ∧
    ∀ c, c < n → (lastOf sq norm n f).amps.getD c 0 = f.c c * norm := by
  refine ⟨by simp [lastOf], fun c hc => ?_⟩
  simp only [lastOf]
  rw [List.getD_eq_getElem?_getD, List.getElem?_map, List.getElem?_range hc]
  rfl

theorem chi2_amps_congr {P : Prob K} {d g : K → K} {a b : Nat → K} (h : ∀ c, c < P.bases.length → a c = b c) : P.chi2 d g a = P.chi2 d g b := by
  unfold Prob.chi2
  congr 1
  apply List.map_congr_left
  intro j hj
  have : P.combo d g a j = P.combo d g b j := by
    unfold Prob.combo
    rw [Finset.sum_congr rfl (fun c hc => by rw [h c (Finset.mem_range.1 hc)])]
  rw [this]

/-- The state of the components: the IGM index applied acts on the samples of the fit as `mi`. -/
def SInv (op : Opt K) (P : Prob K) (mask : List Nat) (hd hi : Bool) (mi : Int) (ss : List (Slot K)) : Prop :=
  ∃ i, List.Forall₂ (fun o s => ∃ kd, Rel op hd hi o kd i s) (P.bases.map (comp P mask)) ss ∧
    (∀ j : Nat, P.p ≤ j → j < P.p + P.n → igmFun op i (P.rest.getD j 0) = igmFun op mi (P.rest.getD j 0))

theorem dustAll_ok {op : Opt K} {P : Prob K} {mask : List Nat} {hd hi : Bool} {i k : Int} (hok : ∀ b ∈ P.bases, (comp P mask b).Ok)
    {ss ss' : List (Slot K)} (h : List.Forall₂ (fun o s => ∃ kd, Rel op hd hi o kd i s) (P.bases.map (comp P mask)) ss) (hs : dustAll op k ss = .ok ss') :
    List.Forall₂ (fun o s => ∃ kd, Rel op hd hi o kd i s ∧ dustFun op kd = dustFun op k) (P.bases.map (comp P mask)) ss' := by
  unfold dustAll at hs
  cases hdu : op.dust with
  | false =>
    rw [hdu] at hs
    simp only [Bool.false_eq_true, if_false, Res.ok.injEq] at hs
    subst hs
    exact h.imp (fun o s ⟨kd, hk⟩ => ⟨kd, hk, dustFun_off hdu _ _⟩)
  | true =>
    rw [hdu] at hs
    simp only [if_true] at hs
    obtain ⟨r, r1, r2⟩ := Res.bind_eq_ok.1 hs
    cases r2
    refine (mapSlots_ok (Q := fun _ _ => True) (bs := r.1) (ss' := r.2) ?_ h r1).1
    rintro o ho s b s' ⟨kd, hkd⟩ hf
    obtain ⟨b', hb', rfl⟩ := List.mem_map.1 ho
    exact ⟨⟨k, (hkd.dustStep (hok b' hb') hdu hf).1, rfl⟩, trivial⟩

theorem dustStep_inv {sq : K → K} {solve : Solver K} {norm : K} {data : List (K × K)} {op : Opt K} {P : Prob K} {mask : List Nat} {hd hi : Bool} {A : Bool}
    {kM kE : Nat} {mi : Int} (hw : IsWls solve) (hn : 0 < norm) (hpn : 0 < P.n) (hdata : Res.tab (datum P.flux P.err norm P.p) P.n = .ok data)
    (hok : ∀ b ∈ P.bases, (comp P mask b).Ok) (hmi : op.meiksin[kM]? = some mi) {st st' : List (Slot K) × Result K}
    (hS : SInv op P mask hd hi mi st.1) (hR : RInv op P A kM kE st.2) (h : dustStep sq solve norm P.p data op A kM mi kE st = .ok st') :
    SInv op P mask hd hi mi st'.1 ∧ RInv op P A kM (kE + 1) st'.2 ∧ 2 ≤ P.bases.length := by
  unfold dustStep at h
  obtain ⟨k, hk, h⟩ := Res.bind_eq_ok.1 h
  have hk := Res.at_eq_ok.1 hk
  have hkE : kE < op.ebmv.length := (List.getElem?_eq_some_iff.1 hk).1
  obtain ⟨slots, h1, h⟩ := Res.bind_eq_ok.1 h
  obtain ⟨eqs, h2, h⟩ := Res.bind_eq_ok.1 h
  obtain ⟨f, h3, h⟩ := Res.bind_eq_ok.1 h
  by_cases hl2 : slots.length < 2
  · rw [if_pos hl2] at h; cases h
  rw [if_neg hl2] at h
  simp only at h
  obtain ⟨tbl, h5, h⟩ := Res.bind_eq_ok.1 h
  cases h
  obtain ⟨i, hS1, hS2⟩ := hS
  have hD := dustAll_ok hok hS1 h1
  have hA := slotsAt_of hpn hok hD hS2
  obtain ⟨m1, m2⟩ := fit_min hw hn hdata hA h2 h3
  obtain ⟨t1, t2, t3, t4⟩ := setTbl_spec h5
  have hcl : (if op.dust then op.ebmvValue k else -1 : K) = coeffOf op k := rfl
  rw [hcl] at t3
  rw [hcl]
  have hnew : Good op P A kE kM ⟨f.chi2, some (coeffOf op k), if A then mi else -1⟩ k mi := ⟨hk, hmi, ⟨_, m2, m1.symm⟩, rfl, rfl⟩
  have hold : ∀ a b : Nat, Before kM kE a b → get2 tbl a b = get2 st.2.tbl a b := by
    intro a b hb
    apply t4
    unfold Before at hb
    by_cases h : a = kE
    · right; omega
    · exact Or.inl h
  have hcase : ∀ a b : Nat, Before kM (kE + 1) a b → Before kM kE a b ∨ (a = kE ∧ b = kM) := by
    intro a b hb
    unfold Before at hb ⊢
    omega
  have hmono : ∀ a b : Nat, Before kM kE a b → Before kM (kE + 1) a b := by
    intro a b hb; unfold Before at hb ⊢; omega
  have hself : Before kM (kE + 1) kE kM := by unfold Before; omega
  refine ⟨⟨i, hD.imp (fun o s ⟨kd, hk, _⟩ => ⟨kd, hk⟩), hS2⟩, ⟨t1.trans hR.tlen, t2 _ hR.rlen, ?_, ?_, ?_⟩, by rw [← hA.1]; omega⟩
  · intro a b ha hb
    show ∃ e k i, get2 tbl a b = some e ∧ _
    rcases hcase a b hb with hb | ⟨rfl, rfl⟩
    · rw [hold a b hb]; exact hR.done a b ha hb
    · exact ⟨_, k, mi, t3, hnew⟩
  · right
    rcases hR.best with ⟨b1, b2, b3⟩ | ⟨a, b, e, k0, i0, q, b1, b2, b3, b4, b5, b6, b7, b8, b9⟩
    · refine ⟨kE, kM, _, k, mi, ⟨f.chi2, snrOf sq slots.length f, if A then mi else -1, coeffOf op k⟩, hkE, hself, t3, hnew, ?_, rfl, rfl, rfl, ?_⟩
      · simp [b3, better]
      · intro a' b' e' ha' hb' hg'
        have hab : a' = kE ∧ b' = kM := by unfold Before at hb'; omega
        obtain ⟨rfl, rfl⟩ := hab
        have hg' : get2 tbl a' b' = some e' := hg'
        rw [t3] at hg'; cases hg'
        refine ⟨le_rfl, fun hx => ?_⟩
        unfold Before at hx; omega
    · by_cases hlt : f.chi2 < q.chi2
      · refine ⟨kE, kM, _, k, mi, ⟨f.chi2, snrOf sq slots.length f, if A then mi else -1, coeffOf op k⟩, hkE, hself, t3, hnew, ?_, rfl, rfl, rfl, ?_⟩
        · simp [b5, better, hlt]
        · intro a' b' e' ha' hb' hg'
          have hg' : get2 tbl a' b' = some e' := hg'
          rcases hcase a' b' hb' with hb | ⟨rfl, rfl⟩
          · rw [hold a' b' hb] at hg'
            have := (b9 a' b' e' ha' hb hg').1
            exact ⟨by simp only; linarith, fun _ => by simp only; linarith⟩
          · rw [t3] at hg'; cases hg'
            refine ⟨le_rfl, fun hx => ?_⟩
            unfold Before at hx; omega
      · refine ⟨a, b, e, k0, i0, q, b1, hmono _ _ b2, ?_, b4, ?_, b6, b7, b8, ?_⟩
        · show get2 tbl a b = _
          rw [hold a b b2]; exact b3
        · simp [b5, better, hlt]
        · intro a' b' e' ha' hb' hg'
          have hg' : get2 tbl a' b' = some e' := hg'
          rcases hcase a' b' hb' with hb | ⟨rfl, rfl⟩
          · rw [hold a' b' hb] at hg'
            exact b9 a' b' e' ha' hb hg'
          · rw [t3] at hg'; cases hg'
            refine ⟨by push Not at hlt; exact hlt, fun hx => ?_⟩
            unfold Before at hx b2; omega
  · right
    refine ⟨kE, kM, k, mi, _, hk, hmi, rfl, ⟨?_, ?_⟩, Or.inl ⟨by omega, rfl, rfl⟩⟩
    · rw [lastOf_amps.1, hA.1]
    · intro amps'
      rw [chi2_amps_congr (b := fun c => f.c c * norm) (fun c hc => lastOf_amps.2 c (by rw [hA.1]; exact hc))]
      exact m2 amps'

/-! ## The loop over the IGM -/

theorem MinChi2.congr {op : Opt K} {P : Prob K} {k i i' : Int} {v : K}
    (h : ∀ j : Nat, P.p ≤ j → j < P.p + P.n → igmFun op i (P.rest.getD j 0) = igmFun op i' (P.rest.getD j 0)) (hm : MinChi2 op P k i v) : MinChi2 op P k i' v := by
  obtain ⟨amps, h1, h2⟩ := hm
  exact ⟨amps, fun a' => by rw [← chi2_congr h, ← chi2_congr h]; exact h1 a', by rw [← chi2_congr h]; exact h2⟩

theorem LastOk.congr {op : Opt K} {P : Prob K} {k i i' : Int} {l : Last K}
    (h : ∀ j : Nat, P.p ≤ j → j < P.p + P.n → igmFun op i (P.rest.getD j 0) = igmFun op i' (P.rest.getD j 0)) (hm : LastOk op P k i l) : LastOk op P k i' l :=
  ⟨hm.1, fun a' => by rw [← chi2_congr h, ← chi2_congr h]; exact hm.2 a'⟩

/-- The state of the components between two IGM indices. -/
def SAny (op : Opt K) (P : Prob K) (mask : List Nat) (hd hi : Bool) (ss : List (Slot K)) : Prop :=
  ∃ i, List.Forall₂ (fun o s => ∃ kd, Rel op hd hi o kd i s) (P.bases.map (comp P mask)) ss

theorem igmAll_inv {op : Opt K} {P : Prob K} {mask : List Nat} {hd hi : Bool} {lo : K} {mi : Int} (hs : P.rest.Pairwise (· ≤ ·)) (hpn : 0 < P.n)
    (hlen : P.p + P.n ≤ P.rest.length) (hne : P.bases ≠ []) (hok : ∀ b ∈ P.bases, (comp P mask b).Ok)
    (hlo : 1216 < lo / (1 + op.z) → ¬ Affected op P) {ss : List (Slot K)} {s : Bool × List (Slot K)} (hS : SAny op P mask hd hi ss)
    (h : igmAll op lo mi ss = .ok s) : SInv op P mask hd hi mi s.2 ∧ (s.1 = true ↔ Affected op P) := by
  obtain ⟨i, hS⟩ := hS
  have hun : ¬ Affected op P → ∀ j : Nat, P.p ≤ j → j < P.p + P.n → igmFun op i (P.rest.getD j 0) = igmFun op mi (P.rest.getD j 0) := by
    intro hA j h1 h2
    rw [igm_unaffected hs hlen hA i j h1 h2, igm_unaffected hs hlen hA mi j h1 h2]
  unfold igmAll at h
  by_cases hig : op.igm = true
  · rw [if_pos hig] at h
    by_cases hb : 1216 < lo / (1 + op.z)
    · rw [if_pos hb] at h
      cases h
      exact ⟨⟨i, hS, hun (hlo hb)⟩, by simp [hlo hb]⟩
    · rw [if_neg hb] at h
      obtain ⟨rr, r1, r2⟩ := Res.bind_eq_ok.1 h
      cases r2
      obtain ⟨m1, m2⟩ := mapSlots_ok (R' := fun o s => ∃ kd, Rel op hd hi o kd mi s)
        (Q := fun o b => b = decide (o.axis[o.kStart]?.getD 0 ≤ op.c.igmMax)) (bs := rr.1) (ss' := rr.2) (by
          rintro o ho s b s' ⟨kd, hkd⟩ hsl
          obtain ⟨b', hb', rfl⟩ := List.mem_map.1 ho
          obtain ⟨q1, q2, q3⟩ := hkd.igmStep (hok b' hb') hig hsl
          exact ⟨⟨kd, q1⟩, q3⟩) hS r1
      refine ⟨⟨mi, m1, fun _ _ _ => rfl⟩, ?_⟩
      have key : ∀ (bs : List (List K)) (rs : List Bool), bs ≠ [] →
          List.Forall₂ (fun o b => b = decide (o.axis[o.kStart]?.getD 0 ≤ op.c.igmMax)) (bs.map (comp P mask)) rs →
          (rs.all id = true ↔ P.rest.getD P.p 0 ≤ op.c.igmMax) := by
        intro bs
        induction bs with
        | nil => intro rs hx; exact absurd rfl hx
        | cons b bs ih =>
          intro rs _ hf
          rw [List.map_cons] at hf
          cases hf with
          | cons q1 q2 =>
            rename_i r rs
            have q1' : r = decide (P.rest.getD P.p 0 ≤ op.c.igmMax) := q1
            by_cases hbs : bs = []
            · subst hbs
              cases q2
              simp [q1']
            · have := ih rs hbs q2
              simp only [List.all_cons, id_eq, Bool.and_eq_true, this, q1', decide_eq_true_eq, and_self]
      show rr.1.all id = true ↔ _
      rw [key _ _ hne m2]
      unfold Affected
      simp [hig]
  · rw [if_neg hig] at h
    cases h
    have hA : ¬ Affected op P := fun hx => hig hx.1
    exact ⟨⟨i, hS, hun hA⟩, by simp [hA]⟩

/-- The loop over the IGM indices. -/
theorem igmLoop_inv {sq : K → K} {solve : Solver K} {norm : K} {data : List (K × K)} {op : Opt K} {P : Prob K} {mask : List Nat} {hd hi : Bool} {A : Bool} {lo : K}
    (hw : IsWls solve) (hn : 0 < norm) (hpn : 0 < P.n) (hdata : Res.tab (datum P.flux P.err norm P.p) P.n = .ok data)
    (hok : ∀ b ∈ P.bases, (comp P mask b).Ok) (hs : P.rest.Pairwise (· ≤ ·)) (hlen : P.p + P.n ≤ P.rest.length) (hne : P.bases ≠ [])
    (hlo : 1216 < lo / (1 + op.z) → ¬ Affected op P) (hE : op.ebmv ≠ []) (hA : A = true ↔ Affected op P) (n : Nat) :
    ∀ (kM : Nat) (skip : Bool) (st : List (Slot K) × Result K) (r : Result K), kM + n = op.meiksin.length → 0 < kM + n →
      SAny op P mask hd hi st.1 → RInv op P A kM 0 st.2 → (skip = true → kM = 1 ∧ ¬ Affected op P) →
      (skip = false → kM = 0 ∨ Affected op P ∨ op.igm = false) →
      igmLoop sq solve norm P.p data op lo kM n skip st = .ok r →
      FitTable op P r ∧ (∃ k i l, op.ebmv.getLast? = some k ∧ op.meiksin.getLast? = some i ∧ r.last = some l ∧ LastOk op P k i l) := by
  have hEl : 0 < op.ebmv.length := List.length_pos_iff.2 hE
  have hun : ¬ Affected op P → ∀ (i i' : Int) (j : Nat), P.p ≤ j → j < P.p + P.n → igmFun op i (P.rest.getD j 0) = igmFun op i' (P.rest.getD j 0) := by
    intro hA i i' j h1 h2
    rw [igm_unaffected hs hlen hA i j h1 h2, igm_unaffected hs hlen hA i' j h1 h2]
  have hlastE : ∀ {a : Nat} {k : Int}, op.ebmv[a]? = some k → a + 1 = op.ebmv.length → op.ebmv.getLast? = some k := by
    intro a k h1 h2
    rw [List.getLast?_eq_getElem?, ← h2, Nat.add_sub_cancel]; exact h1
  induction n with
  | zero =>
    intro kM skip st r hkn hpos hS hR hsk hfi h
    simp only [igmLoop, Res.ok.injEq] at h
    subst h
    have hk : 0 < kM := by omega
    have hall : ∀ a b : Nat, b < op.meiksin.length → Before kM 0 a b := by intro a b hb; left; omega
    refine ⟨⟨hR.tlen, hR.rlen, fun a b k i ha hb => ?_, ?_⟩, ?_⟩
    · obtain ⟨e, k', i', g1, g2, g3, g4, g5, g6⟩ := hR.done a b (List.getElem?_eq_some_iff.1 ha).1 (hall a b (List.getElem?_eq_some_iff.1 hb).1)
      rw [ha] at g2; cases g2
      rw [hb] at g3; cases g3
      refine ⟨e, g1, g4, g5, fun hx => ?_, fun hx => ?_⟩
      · rw [g6, if_pos (hA.2 hx)]
      · rw [g6, if_neg (fun hc => hx (hA.1 hc))]
    · rcases hR.best with ⟨b1, -⟩ | ⟨a, b, e, k, i, q, b1, b2, b3, ⟨c1, c2, c3, c4, c5⟩, b5, b6, b7, b8, b9⟩
      · omega
      · refine ⟨a, b, k, i, e, q, c1, c2, b3, b5, b6, b7, fun hx => ?_, fun hx => ?_, fun a' b' e' hg => ?_⟩
        · rw [b8, if_pos (hA.2 hx)]
        · rw [b8, if_neg (fun hc => hx (hA.1 hc))]
        · obtain ⟨q1, row, q2, q3, q4⟩ := get2_lt hg
          obtain ⟨z1, z2⟩ := b9 a' b' e' (by rw [← hR.tlen]; exact q1) (hall a' b' (by rw [hR.rlen row q2] at q4; exact q4)) hg
          exact ⟨z1, fun hx => z2 (by unfold Before; omega)⟩
    · rcases hR.last with ⟨b1, -⟩ | ⟨a, b, k, i, l, c1, c2, c3, c4, c5⟩
      · omega
      · rcases c5 with ⟨h0, -⟩ | ⟨-, d1, d2⟩
        · omega
        · refine ⟨k, i, l, hlastE c1 d1, ?_, c3, c4⟩
          rw [List.getLast?_eq_getElem?, ← c2]
          congr 1; omega
  | succ n ih =>
    intro kM skip st r hkn hpos hS hR hsk hfi h
    unfold igmLoop at h
    by_cases hc : skip = true
    · rw [if_pos hc] at h
      obtain ⟨hk1, hnA⟩ := hsk hc
      cases h
      have hm0 : 0 < op.meiksin.length := by omega
      have hAf : A = false := by
        cases A with
        | false => rfl
        | true => exact absurd (hA.1 rfl) hnA
      refine ⟨⟨by simp [hR.tlen], ?_, fun a b k i ha hb => ?_, ?_⟩, ?_⟩
      · intro row hrow
        obtain ⟨row', hr', rfl⟩ := List.mem_map.1 hrow
        rw [copyFirst_length]; exact hR.rlen row' hr'
      · obtain ⟨e, k', i', g1, g2, g3, g4, g5, g6⟩ := hR.done a 0 (List.getElem?_eq_some_iff.1 ha).1 (Or.inl (by omega))
        rw [ha] at g2; cases g2
        refine ⟨e, ?_, g4.congr (hun hnA _ _), g5, fun hx => absurd hx hnA, fun _ => by rw [g6, hAf]; rfl⟩
        rw [get2_copy hR.rlen (List.getElem?_eq_some_iff.1 hb).1]
        exact g1
      · rcases hR.best with ⟨b1, -⟩ | ⟨a, b, e, k, i, q, b1, b2, b3, ⟨c1, c2, c3, c4, c5⟩, b5, b6, b7, b8, b9⟩
        · omega
        · have hb0 : b = 0 := by unfold Before at b2; omega
          subst hb0
          refine ⟨a, 0, k, i, e, q, c1, c2, ?_, b5, b6, b7, fun hx => absurd hx hnA, fun _ => by rw [b8, hAf]; rfl, fun a' b' e' hg => ?_⟩
          · rw [get2_copy hR.rlen hm0]; exact b3
          · obtain ⟨q1, row, q2, q3, q4⟩ := get2_lt hg
            have hb' : b' < op.meiksin.length := by
              obtain ⟨row', hr', rfl⟩ := List.mem_map.1 q2
              rw [copyFirst_length, hR.rlen row' hr'] at q4; exact q4
            rw [List.length_map, hR.tlen] at q1
            have hg' : get2 st.2.tbl a' 0 = some e' := by
              rw [← get2_copy (a := a') hR.rlen hb']; exact hg
            obtain ⟨q5, q6⟩ := b9 a' 0 e' q1 (Or.inl (by omega)) hg'
            refine ⟨q5, fun hlt => q6 ?_⟩
            unfold Before
            omega
      · rcases hR.last with ⟨b1, -⟩ | ⟨a, b, k, i, l, c1, c2, c3, c4, c5⟩
        · omega
        · rcases c5 with ⟨h0, -⟩ | ⟨-, d1, d2⟩
          · omega
          · have hml : op.meiksin.length - 1 < op.meiksin.length := by omega
            refine ⟨k, op.meiksin[op.meiksin.length - 1], l, hlastE c1 d1, ?_, c3, c4.congr (hun hnA _ _)⟩
            rw [List.getLast?_eq_getElem?, List.getElem?_eq_getElem hml]
    · rw [if_neg hc] at h
      obtain ⟨mi, hmi, h⟩ := Res.bind_eq_ok.1 h
      have hmi := Res.at_eq_ok.1 hmi
      obtain ⟨s, hs', h⟩ := Res.bind_eq_ok.1 h
      obtain ⟨st', hf, h⟩ := Res.bind_eq_ok.1 h
      obtain ⟨k1, k2⟩ := igmAll_inv hs hpn hlen hne hok hlo hS hs'
      have hsA : s.1 = A := by
        cases h1 : s.1 <;> cases h2 : A <;> simp_all
      rw [hsA] at hf
      have hloop := Res.foldN_inv_ok
        (P := fun kE (st : List (Slot K) × Result K) => SInv op P mask hd hi mi st.1 ∧ RInv op P A kM kE st.2)
        op.ebmv.length 0 (s.2, st.2) st' ⟨k1, hR⟩ (fun kE a b _ _ hab hst => by
          have := dustStep_inv hw hn hpn hdata hok hmi hab.1 hab.2 hst
          exact ⟨this.1, this.2.1⟩) hf
      rw [Nat.zero_add] at hloop
      obtain ⟨l1, l2⟩ := hloop
      have hB : ∀ a b : Nat, a < op.ebmv.length → (Before (kM + 1) 0 a b ↔ Before kM op.ebmv.length a b) := by
        intro a b ha; unfold Before; omega
      refine ih (kM + 1) _ st' r (by omega) (by omega) ?_ ?_ ?_ ?_ h
      · obtain ⟨i, hi1, _⟩ := l1
        exact ⟨i, hi1⟩
      · refine ⟨l2.tlen, l2.rlen, fun a b ha hb => l2.done a b ha ((hB a b ha).1 hb), Or.inr ?_, Or.inr ?_⟩
        · rcases l2.best with ⟨_, q, _⟩ | ⟨a, b, e, k, i, q, b1, b2, b3, b4, b5, b6, b7, b8, b9⟩
          · omega
          · exact ⟨a, b, e, k, i, q, b1, (hB a b b1).2 b2, b3, b4, b5, b6, b7, b8, fun a' b' e' ha' hb' => b9 a' b' e' ha' ((hB a' b' ha').1 hb')⟩
        · rcases l2.last with ⟨_, q⟩ | ⟨a, b, k, i, l, c1, c2, c3, c4, c5⟩
          · omega
          · refine ⟨a, b, k, i, l, c1, c2, c3, c4, Or.inr ⟨rfl, ?_, ?_⟩⟩
            · rcases c5 with ⟨_, d, _⟩ | ⟨d, _⟩ <;> omega
            · rcases c5 with ⟨_, _, d⟩ | ⟨d, _⟩ <;> omega
      · intro hx
        simp only [Bool.and_eq_true, Bool.not_eq_eq_eq_not, Bool.not_true] at hx
        have hnA : ¬ Affected op P := fun hy => by rw [k2.2 hy] at hx; simp at hx
        refine ⟨?_, hnA⟩
        rcases hfi (by simpa using hc) with h0 | h0 | h0
        · omega
        · exact absurd h0 hnA
        · rw [h0] at hx; simp at hx
      · intro hx
        by_cases hy : op.igm = true
        · right; left
          apply k2.1
          rw [hy] at hx
          simpa using hx
        · right; right
          simpa using hy

end TplComb
end Amazed
