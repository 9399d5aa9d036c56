import Verif.Model.LogTable
import Mathlib.Data.List.Perm.Basic
import Mathlib.Data.List.Nodup
import Mathlib.Tactic.Ring

/-! # C180, C181 : the handlers of the log, in one thread and in several -/

set_option linter.unusedSectionVars false
set_option linter.unusedVariables false

namespace Amazed
namespace LogTable

/-! ## Specification -/

/-- The handlers that exist after a call. -/
def liveStep (l : List Nat) : Op → List Nat
  | .create h => if h ∈ l then l else h :: l
  | .destroy h => l.erase h
  | .setMask _ _ => l
  | .log _ _ _ _ => l

/-- The handlers that exist after a history. -/
def live (ops : List Op) : List Nat := ops.foldl liveStep []

/-- The life of one handler: `none` while it does not exist, its mask while it does. Only its own events matter. -/
def own (h : Nat) (m : Option Int) : Op → Option Int
  | .create k => if k = h then (if m = none then some 80 else m) else m
  | .destroy k => if k = h then none else m
  | .setMask k v => if k = h then (if m = none then none else some v) else m
  | .log _ _ _ _ => m

/-- What a handler should receive from one call: a message logged while it exists, when its mask is not above the level. -/
def gets (m : Option Int) : Op → List String
  | .log now l msg stamped =>
    match m with
    | some v => if v ≤ l.value then [compose now l msg stamped] else []
    | none => []
  | .create _ => []
  | .destroy _ => []
  | .setMask _ _ => []

/-- What one handler should receive from a history. -/
def expected (h : Nat) : Option Int → List Op → List String
  | _, [] => []
  | m, o :: r => gets m o ++ expected h (own h m o) r

/-! ## The table -/

/-- The handlers in the table. -/
def somes (t : List (Option Nat)) : List Nat := t.filterMap id

theorem add_length : ∀ (t : List (Option Nat)) (h : Nat), (add t h).length = t.length
  | [], _ => rfl
  | none :: r, h => rfl
  | some x :: r, h => by unfold add; simp [add_length r h]

theorem remove_length : ∀ (t : List (Option Nat)) (h : Nat), (remove t h).length = t.length
  | [], _ => rfl
  | none :: r, h => by unfold remove; simp [remove_length r h]
  | some x :: r, h => by unfold remove; split <;> simp [remove_length r h]

theorem add_perm : ∀ (t : List (Option Nat)) (h : Nat), none ∈ t → (somes (add t h)).Perm (h :: somes t)
  | [], _, hn => by cases hn
  | none :: r, h, _ => by unfold add somes; simp
  | some x :: r, h, hn => by
    have hr : none ∈ r := by simpa using hn
    have e1 : somes (add (some x :: r) h) = x :: somes (add r h) := rfl
    have e2 : somes (some x :: r) = x :: somes r := rfl
    rw [e1, e2]
    exact ((add_perm r h hr).cons x).trans (List.Perm.swap _ _ _)

theorem add_full : ∀ (t : List (Option Nat)) (h : Nat), none ∉ t → add t h = t
  | [], _, _ => rfl
  | none :: r, h, hn => absurd (List.mem_cons_self ..) hn
  | some x :: r, h, hn => by
    unfold add; rw [add_full r h (fun c => hn (List.mem_cons_of_mem _ c))]

theorem somes_remove : ∀ (t : List (Option Nat)) (h : Nat), somes (remove t h) = (somes t).erase h
  | [], _ => rfl
  | none :: r, h => by
    have e1 : somes (remove (none :: r) h) = somes (remove r h) := rfl
    rw [e1, somes_remove r h]
    rfl
  | some x :: r, h => by
    have e2 : somes (some x :: r) = x :: somes r := rfl
    have e0 : remove (some x :: r) h = if x = h then none :: r else some x :: remove r h := rfl
    rw [e2, e0]
    by_cases c : x = h
    · rw [if_pos c, c, List.erase_cons_head]
      rfl
    · have e1 : somes (some x :: remove r h) = x :: somes (remove r h) := rfl
      rw [if_neg c, e1, somes_remove r h, List.erase_cons_tail (by simpa using c)]

theorem somes_full {t : List (Option Nat)} : none ∉ t → (somes t).length = t.length := by
  induction t with
  | nil => intro _; rfl
  | cons a r ih =>
    intro h
    cases a with
    | none => exact absurd (List.mem_cons_self ..) h
    | some x =>
      have := ih (fun c => h (List.mem_cons_of_mem _ c))
      have e2 : somes (some x :: r) = x :: somes r := rfl
      rw [e2, List.length_cons, this, List.length_cons]

theorem mem_somes {t : List (Option Nat)} {h : Nat} : h ∈ somes t ↔ some h ∈ t := by
  unfold somes; simp [List.mem_filterMap]

/-- The state between two calls. -/
structure Ok (s : St) : Prop where
  size : s.table.length = 8
  nodup : (somes s.table).Nodup
  sub : ∀ h ∈ somes s.table, h ∈ s.alive
  aliveNodup : s.alive.Nodup

theorem ok_init : Ok St.init := ⟨rfl, by decide, by decide, by decide⟩

theorem deliver_eq (alive : List Nat) (mask : Nat → Int) (l : Level) (text : String) :
    ∀ (t : List (Option Nat)) (got : Nat → List String), (somes t).Nodup → (∀ h ∈ somes t, h ∈ alive) →
      deliver alive mask l text t got =
        .ok (fun k => if k ∈ somes t ∧ mask k ≤ l.value then got k ++ [text] else got k)
  | [], got, _, _ => by
    unfold deliver somes
    simp
  | none :: r, got, hn, ha => by
    have e : somes (none :: r) = somes r := rfl
    rw [e] at hn ha ⊢
    exact deliver_eq alive mask l text r got hn ha
  | some h :: r, got, hn, ha => by
    have e : somes (some h :: r) = h :: somes r := rfl
    rw [e] at hn ha ⊢
    obtain ⟨h1, h2⟩ := List.nodup_cons.1 hn
    have hr : ∀ k ∈ somes r, k ∈ alive := fun k hk => ha k (List.mem_cons_of_mem _ hk)
    unfold deliver
    rw [if_pos (ha h (List.mem_cons_self ..))]
    by_cases c : mask h ≤ l.value
    · rw [if_pos c, deliver_eq alive mask l text r _ h2 hr]
      congr 1
      funext k
      by_cases ck : k = h
      · subst ck
        rw [if_neg (fun c' => h1 c'.1), if_pos rfl, if_pos ⟨List.mem_cons_self .., c⟩]
      · simp only [List.mem_cons, ck, false_or, if_false]
    · rw [if_neg c, deliver_eq alive mask l text r _ h2 hr]
      congr 1
      funext k
      by_cases ck : k = h
      · subst ck
        rw [if_neg (fun c' => h1 c'.1), if_neg (fun c' => c c'.2)]
      · simp only [List.mem_cons, ck, false_or]

/-- One call keeps the state sound, ends, and has the effects the specification says on who exists and on the masks. -/
theorem step_ok {s : St} (hs : Ok s) (o : Op) : ∃ s', step s o = .ok s' ∧ Ok s' ∧ s'.alive = liveStep s.alive o := by
  cases o with
  | create h =>
    by_cases c : h ∈ s.alive
    · exact ⟨s, by simp only [step]; rw [if_pos c], hs, by simp only [liveStep]; rw [if_pos c]⟩
    · refine ⟨⟨add s.table h, h :: s.alive, fun k => if k = h then Level.warning.value else s.mask k, s.got⟩,
        by simp only [step]; rw [if_neg c], ?_, by simp only [liveStep]; rw [if_neg c]⟩
      by_cases cn : none ∈ s.table
      · have p := add_perm s.table h cn
        refine ⟨(add_length _ _).trans hs.size, ?_, ?_, List.nodup_cons.2 ⟨c, hs.aliveNodup⟩⟩
        · rw [p.nodup_iff]
          exact List.nodup_cons.2 ⟨fun m => c (hs.sub h m), hs.nodup⟩
        · intro k hk
          rcases List.mem_cons.1 (p.mem_iff.1 hk) with rfl | hk
          · exact List.mem_cons_self ..
          · exact List.mem_cons_of_mem _ (hs.sub k hk)
      · rw [add_full _ _ cn]
        exact ⟨hs.size, hs.nodup, fun k hk => List.mem_cons_of_mem _ (hs.sub k hk), List.nodup_cons.2 ⟨c, hs.aliveNodup⟩⟩
  | destroy h =>
    by_cases c : h ∈ s.alive
    · refine ⟨{ s with table := remove s.table h, alive := s.alive.erase h }, by simp only [step]; rw [if_pos c], ?_, rfl⟩
      refine ⟨(remove_length _ _).trans hs.size, ?_, ?_, hs.aliveNodup.erase _⟩
      · show (somes (remove s.table h)).Nodup
        rw [somes_remove]; exact hs.nodup.erase _
      · intro k hk
        change k ∈ somes (remove s.table h) at hk
        rw [somes_remove, hs.nodup.mem_erase_iff] at hk
        exact hs.aliveNodup.mem_erase_iff.2 ⟨hk.1, hs.sub k hk.2⟩
    · exact ⟨s, by simp only [step]; rw [if_neg c], hs, by simp only [liveStep]; rw [List.erase_of_not_mem c]⟩
  | setMask h m =>
    by_cases c : h ∈ s.alive
    · exact ⟨{ s with mask := fun k => if k = h then m else s.mask k }, by simp only [step]; rw [if_pos c],
        ⟨hs.size, hs.nodup, hs.sub, hs.aliveNodup⟩, rfl⟩
    · exact ⟨s, by simp only [step]; rw [if_neg c], hs, rfl⟩
  | log now l msg stamped =>
    refine ⟨{ s with got := fun k => if k ∈ somes s.table ∧ s.mask k ≤ l.value then s.got k ++ [compose now l msg stamped] else s.got k },
      ?_, ⟨hs.size, hs.nodup, hs.sub, hs.aliveNodup⟩, rfl⟩
    simp only [step]
    rw [deliver_eq _ _ _ _ _ _ hs.nodup hs.sub, Res.bind_ok]

/-- The life of a handler as the state has it. -/
def lifeIn (s : St) (h : Nat) : Option Int := if h ∈ s.alive then some (s.mask h) else none

theorem own_step {s s' : St} (hs : Ok s) (o : Op) (h : Nat) (e : step s o = .ok s') : lifeIn s' h = own h (lifeIn s h) o := by
  cases o with
  | create k =>
    simp only [step] at e
    by_cases c : k ∈ s.alive
    · rw [if_pos c] at e; cases e
      simp only [own, lifeIn]
      by_cases ck : k = h
      · subst ck; simp [c]
      · rw [if_neg ck]
    · rw [if_neg c] at e; cases e
      simp only [own, lifeIn]
      by_cases ck : k = h
      · subst ck; simp [c, Level.value]
      · rw [if_neg ck]
        simp [Ne.symm ck]
  | destroy k =>
    simp only [step] at e
    by_cases c : k ∈ s.alive
    · rw [if_pos c] at e; cases e
      simp only [own, lifeIn]
      by_cases ck : k = h
      · subst ck
        rw [if_neg (fun m => (hs.aliveNodup.mem_erase_iff.1 m).1 rfl), if_pos rfl]
      · rw [if_neg ck]
        simp only [hs.aliveNodup.mem_erase_iff, ne_eq, Ne.symm ck, not_false_eq_true, true_and]
    · rw [if_neg c] at e; cases e
      simp only [own, lifeIn]
      by_cases ck : k = h
      · subst ck; rw [if_neg c, if_pos rfl]
      · rw [if_neg ck]
  | setMask k v =>
    simp only [step] at e
    by_cases c : k ∈ s.alive
    · rw [if_pos c] at e; cases e
      simp only [own, lifeIn]
      by_cases ck : k = h
      · subst ck; simp [c]
      · rw [if_neg ck]
        simp [Ne.symm ck]
    · rw [if_neg c] at e; cases e
      simp only [own, lifeIn]
      by_cases ck : k = h
      · subst ck; simp [c]
      · rw [if_neg ck]
  | log now l msg stamped =>
    simp only [step] at e
    rw [deliver_eq _ _ _ _ _ _ hs.nodup hs.sub, Res.bind_ok] at e
    cases e
    rfl

/-- What a call gives a handler, from the table. -/
def given (s : St) (h : Nat) : Op → List String
  | .log now l msg stamped => if h ∈ somes s.table ∧ s.mask h ≤ l.value then [compose now l msg stamped] else []
  | .create _ => []
  | .destroy _ => []
  | .setMask _ _ => []

theorem got_step {s s' : St} (hs : Ok s) (o : Op) (e : step s o = .ok s') (h : Nat) :
    s'.got h = s.got h ++ given s h o := by
  cases o with
  | create k => simp only [step] at e; split at e <;> cases e <;> simp [given]
  | destroy k => simp only [step] at e; split at e <;> cases e <;> simp [given]
  | setMask k v => simp only [step] at e; split at e <;> cases e <;> simp [given]
  | log now l msg stamped =>
    simp only [step] at e
    rw [deliver_eq _ _ _ _ _ _ hs.nodup hs.sub, Res.bind_ok] at e
    cases e
    simp only [given]
    split <;> simp

/-! ## C180: one thread -/

/-- C180 (safety): every history of handlers created, configured and destroyed and of messages logged ends without touching a
destroyed handler, and what each handler has received is part, in order, of the messages logged while it existed at a level
not below its mask: nothing else, and each at most once. -/
theorem C180_safe (ops : List Op) :
    ∃ s, run St.init ops = .ok s ∧ s.alive = live ops ∧ ∀ h, (s.got h).Sublist (expected h none ops) := by
  have gen : ∀ (ops : List Op) (s : St), Ok s → ∃ s', run s ops = .ok s' ∧ s'.alive = ops.foldl liveStep s.alive ∧
      ∀ h, ∃ r, s'.got h = s.got h ++ r ∧ r.Sublist (expected h (lifeIn s h) ops) := by
    intro ops
    induction ops with
    | nil => intro s hs; exact ⟨s, rfl, rfl, fun h => ⟨[], (List.append_nil _).symm, List.Sublist.refl _⟩⟩
    | cons o r ih =>
      intro s hs
      obtain ⟨s1, e1, hs1, ha1⟩ := step_ok hs o
      obtain ⟨s2, e2, ha2, hg2⟩ := ih s1 hs1
      refine ⟨s2, by unfold run; rw [e1, Res.bind_ok, e2], by rw [ha2, ha1]; rfl, ?_⟩
      intro h
      obtain ⟨q, hq, hsub⟩ := hg2 h
      rw [own_step hs o h e1] at hsub
      rw [got_step hs o e1 h] at hq
      refine ⟨_, by rw [hq, List.append_assoc], ?_⟩
      unfold expected
      refine List.Sublist.append ?_ hsub
      cases o with
      | log now l msg stamped =>
        simp only [given, gets]
        split
        · rename_i c
          have : lifeIn s h = some (s.mask h) := by unfold lifeIn; rw [if_pos (hs.sub h c.1)]
          rw [this]
          dsimp only
          rw [if_pos c.2]
        · exact List.nil_sublist _
      | create k => exact List.nil_sublist _
      | destroy k => exact List.nil_sublist _
      | setMask k v => exact List.nil_sublist _
  obtain ⟨s, e, ha, hg⟩ := gen ops St.init ok_init
  refine ⟨s, e, ha, fun h => ?_⟩
  obtain ⟨r, hr, hs⟩ := hg h
  have e1 : St.init.got h = [] := rfl
  have e2 : lifeIn St.init h = none := rfl
  rw [e1, List.nil_append] at hr
  rw [hr, ← e2]
  exact hs

/-- C180, partial: in a history where at most eight handlers exist at a time, every handler receives exactly the messages
logged while it exists at a level not below its mask, each once and in order, whatever the other handlers do. Missing for the
full claim: more handlers, see the next theorems. -/
theorem C180_delivery_partial (ops : List Op) (hlim : ∀ p, p <+: ops → (live p).length ≤ 8) :
    ∃ s, run St.init ops = .ok s ∧ ∀ h, s.got h = expected h none ops := by
  have gen : ∀ (ops done : List Op) (s : St), Ok s → s.alive = live done → (∀ h ∈ s.alive, h ∈ somes s.table) →
      (∀ p, p <+: ops → (live (done ++ p)).length ≤ 8) →
      ∃ s', run s ops = .ok s' ∧ ∀ h, s'.got h = s.got h ++ expected h (lifeIn s h) ops := by
    intro ops
    induction ops with
    | nil => intro done s hs _ _ _; exact ⟨s, rfl, fun h => (List.append_nil _).symm⟩
    | cons o r ih =>
      intro done s hs hd hall hl
      obtain ⟨s1, e1, hs1, ha1⟩ := step_ok hs o
      have hlive : s1.alive = live (done ++ [o]) := by
        rw [ha1, hd]; unfold live; rw [List.foldl_append]; rfl
      have hall1 : ∀ h ∈ s1.alive, h ∈ somes s1.table := by
        cases o with
        | create k =>
          simp only [step] at e1
          by_cases c : k ∈ s.alive
          · rw [if_pos c] at e1; cases e1; exact hall
          · rw [if_neg c] at e1; cases e1
            have hlen : (k :: s.alive).length ≤ 8 := by
              have := hl [.create k] ⟨r, rfl⟩
              rw [← hlive] at this
              exact this
            have cn : none ∈ s.table := by
              apply Classical.byContradiction
              intro cn
              have h1 := somes_full cn
              rw [hs.size] at h1
              have h2 : (somes s.table).length ≤ s.alive.length :=
                (List.subperm_of_subset hs.nodup hs.sub).length_le
              rw [List.length_cons] at hlen
              omega
            intro h hh
            refine (add_perm s.table k cn).mem_iff.2 ?_
            rcases List.mem_cons.1 hh with rfl | hh
            · exact List.mem_cons_self ..
            · exact List.mem_cons_of_mem _ (hall h hh)
        | destroy k =>
          simp only [step] at e1
          by_cases c : k ∈ s.alive
          · rw [if_pos c] at e1; cases e1
            intro h hh
            show h ∈ somes (remove s.table k)
            rw [somes_remove, hs.nodup.mem_erase_iff]
            obtain ⟨a, b⟩ := hs.aliveNodup.mem_erase_iff.1 hh
            exact ⟨a, hall h b⟩
          · rw [if_neg c] at e1; cases e1; exact hall
        | setMask k v =>
          simp only [step] at e1
          split at e1 <;> cases e1 <;> exact hall
        | log now l msg stamped =>
          simp only [step] at e1
          obtain ⟨g, _, e1⟩ := Res.bind_eq_ok.1 e1
          cases e1
          exact hall
      obtain ⟨s2, e2, hg2⟩ := ih (done ++ [o]) s1 hs1 hlive hall1 (by
        intro p hp
        rw [List.append_assoc]
        exact hl (o :: p) (by obtain ⟨q, hq⟩ := hp; exact ⟨q, by rw [← hq]; rfl⟩))
      refine ⟨s2, by unfold run; rw [e1, Res.bind_ok, e2], fun h => ?_⟩
      rw [hg2 h, own_step hs o h e1, got_step hs o e1 h, List.append_assoc]
      congr 1
      rw [expected]
      congr 1
      cases o with
      | log now l msg stamped =>
        simp only [given, gets]
        by_cases c : h ∈ s.alive
        · have : lifeIn s h = some (s.mask h) := by unfold lifeIn; rw [if_pos c]
          rw [this]
          simp only [hall h c, true_and]
        · have : lifeIn s h = none := by unfold lifeIn; rw [if_neg c]
          rw [this]
          exact if_neg (fun m => c (hs.sub h m.1))
      | create k => rfl
      | destroy k => rfl
      | setMask k v => rfl
  obtain ⟨s, e, hg⟩ := gen ops [] St.init ok_init rfl (by intro h hh; cases hh) (by simpa using hlim)
  exact ⟨s, e, fun h => by rw [hg h]; rfl⟩

/-- The table stays without the handler. -/
theorem absent_step {s s' : St} (hs : Ok s) (o : Op) (h : Nat) (ha : h ∈ s.alive) (hn : h ∉ somes s.table)
    (ho : o ≠ .destroy h) (e : step s o = .ok s') : h ∈ s'.alive ∧ h ∉ somes s'.table ∧ s'.got h = s.got h := by
  have hg := got_step hs o e h
  cases o with
  | create k =>
    simp only [step] at e
    by_cases c : k ∈ s.alive
    · rw [if_pos c] at e; cases e; exact ⟨ha, hn, rfl⟩
    · rw [if_neg c] at e; cases e
      refine ⟨List.mem_cons_of_mem _ ha, ?_, rfl⟩
      have hk : h ≠ k := fun x => c (x ▸ ha)
      by_cases cn : none ∈ s.table
      · intro m
        rcases List.mem_cons.1 ((add_perm s.table k cn).mem_iff.1 m) with x | x
        · exact hk x
        · exact hn x
      · show h ∉ somes (add s.table k)
        rw [add_full _ _ cn]; exact hn
  | destroy k =>
    simp only [step] at e
    by_cases c : k ∈ s.alive
    · rw [if_pos c] at e; cases e
      have hk : h ≠ k := fun x => ho (by rw [x])
      refine ⟨hs.aliveNodup.mem_erase_iff.2 ⟨hk, ha⟩, ?_, rfl⟩
      show h ∉ somes (remove s.table k)
      rw [somes_remove]
      exact fun m => hn (List.mem_of_mem_erase m)
    · rw [if_neg c] at e; cases e; exact ⟨ha, hn, rfl⟩
  | setMask k v =>
    simp only [step] at e
    split at e <;> cases e <;> exact ⟨ha, hn, rfl⟩
  | log now l msg stamped =>
    simp only [given] at hg
    rw [if_neg (fun m => hn m.1), List.append_nil] at hg
    simp only [step] at e
    obtain ⟨g, _, e⟩ := Res.bind_eq_ok.1 e
    cases e
    exact ⟨ha, hn, hg⟩

/-- C180 (a full table): a handler created while the table has no free position receives nothing for as long as it exists,
even when positions become free later, and whatever its mask: no error is reported. -/
theorem C180_full (s : St) (hs : Ok s) (hfull : none ∉ s.table) (h : Nat) (hh : h ∉ s.alive) (ops : List Op)
    (hd : ∀ o ∈ ops, o ≠ .destroy h) : ∃ s', run s (.create h :: ops) = .ok s' ∧ h ∈ s'.alive ∧ s'.got h = s.got h := by
  obtain ⟨s1, e1, hs1, ha1⟩ := step_ok hs (.create h)
  have hn1 : h ∉ somes s1.table ∧ s1.got = s.got ∧ h ∈ s1.alive := by
    simp only [step] at e1
    rw [if_neg hh] at e1
    cases e1
    refine ⟨?_, rfl, List.mem_cons_self ..⟩
    show h ∉ somes (add s.table h)
    rw [add_full _ _ hfull]
    exact fun m => hh (hs.sub h m)
  have gen : ∀ (ops : List Op) (s : St), Ok s → h ∈ s.alive → h ∉ somes s.table → (∀ o ∈ ops, o ≠ .destroy h) →
      ∃ s', run s ops = .ok s' ∧ h ∈ s'.alive ∧ s'.got h = s.got h := by
    intro ops
    induction ops with
    | nil => intro s hs ha hn _; exact ⟨s, rfl, ha, rfl⟩
    | cons o r ih =>
      intro s hs ha hn hd
      obtain ⟨s1, e1, hs1, _⟩ := step_ok hs o
      obtain ⟨b1, b2, b3⟩ := absent_step hs o h ha hn (hd o (List.mem_cons_self ..)) e1
      obtain ⟨s2, e2, c1, c2⟩ := ih s1 hs1 b1 b2 fun x hx => hd x (List.mem_cons_of_mem _ hx)
      exact ⟨s2, by unfold run; rw [e1, Res.bind_ok, e2], c1, c2.trans b3⟩
  obtain ⟨s2, e2, c1, c2⟩ := gen ops s1 hs1 hn1.2.2 hn1.1 hd
  exact ⟨s2, by unfold run; rw [e1, Res.bind_ok, e2], c1, by rw [c2, hn1.2.1]⟩

/-- Nine handlers. -/
def nine : List Op := (List.range 9).map Op.create

/-- C180 (counterexample): nine handlers exist, the ninth does not receive an error, not even after another is destroyed. -/
theorem C180_counterexample : ∃ s, run St.init (nine ++ [.log "now" .error "first" false, .destroy 0, .log "now" .error "second" false]) = .ok s ∧
    8 ∈ s.alive ∧ s.got 8 = [] ∧ s.got 7 = ["Error: first", "Error: second"] ∧
    expected 8 none (nine ++ [.log "now" .error "first" false, .destroy 0, .log "now" .error "second" false]) =
      ["Error: first", "Error: second"] := by
  obtain ⟨s, e, ha, _⟩ := C180_safe (nine ++ [.log "now" .error "first" false, .destroy 0, .log "now" .error "second" false])
  refine ⟨s, e, ?_, ?_, ?_, by decide +kernel⟩
  · rw [ha]; decide +kernel
  · have : (match run St.init (nine ++ [.log "now" .error "first" false, .destroy 0, .log "now" .error "second" false]) with
        | .ok s => s.got 8 | _ => ["?"]) = [] := by decide +kernel
    rw [e] at this; exact this
  · have : (match run St.init (nine ++ [.log "now" .error "first" false, .destroy 0, .log "now" .error "second" false]) with
        | .ok s => s.got 7 | _ => ["?"]) = ["Error: first", "Error: second"] := by decide +kernel
    rw [e] at this; exact this

example : ∀ p, p <+: [Op.create 0, .log "now" .error "x" true] → (live p).length ≤ 8 := by
  intro p hp
  have h1 : ∀ (p : List Op), (live p).length ≤ p.length := by
    intro p
    have : ∀ (p : List Op) (l : List Nat), (p.foldl liveStep l).length ≤ l.length + p.length := by
      intro p
      induction p with
      | nil => intro l; simp
      | cons o r ih =>
        intro l
        have := ih (liveStep l o)
        have h2 : (liveStep l o).length ≤ l.length + 1 := by
          cases o with
          | create h => simp only [liveStep]; split <;> simp
          | destroy h => have := List.length_erase_le (a := h) (l := l); simp only [liveStep]; omega
          | setMask h m => simp only [liveStep]; omega
          | log _ _ _ _ => simp only [liveStep]; omega
        simp only [List.foldl_cons, List.length_cons]
        omega
    simpa [live] using this p []
  have := hp.length_le
  have h3 := h1 p
  simp only [List.length_cons, List.length_nil] at this
  omega

example : expected 0 none [Op.create 0, .setMask 0 65, .log "now" .detail "x" true, .log "now" .debug "y" true, .destroy 0] =
    ["now Detail: x"] := by decide +kernel

/-! ## Levels and text -/

/-- The severity of a level, from the least. -/
def severity : Level → Nat
  | .none => 0
  | .debug => 1
  | .detail => 2
  | .info => 3
  | .warning => 4
  | .error => 5
  | .critical => 6

/-- **C180** (levels). A handler whose mask is a level takes the messages of this level and of the more severe ones. -/
theorem C180_levels (a b : Level) : a.value ≤ b.value ↔ severity a ≤ severity b := by
  cases a <;> cases b <;> decide

/-- **C180** (text). The text of a message is the message after the word of its level, after the time when it is asked for; a message without level has no word. -/
theorem C180_text (now msg : String) (l : Level) :
    (compose now l msg false).toList = (header l).toList ++ msg.toList ∧
    (compose now l msg true).toList = now.toList ++ ' ' :: (header l).toList ++ msg.toList ∧
    (l ≠ .none → ∃ w : String, header l = w ++ ": " ∧ (l, w) ∈ [(Level.critical, "Critical"), (.error, "Error"), (.warning, "Warning"), (.info, "Info"), (.detail, "Detail"), (.debug, "Debug")]) ∧
    header .none = "" := by
  refine ⟨?_, ?_, ?_, rfl⟩
  · simp [compose]
  · simp [compose]
  · intro h
    cases l
    · exact ⟨"Critical", by decide +kernel, by decide +kernel⟩
    · exact ⟨"Error", by decide +kernel, by decide +kernel⟩
    · exact ⟨"Warning", by decide +kernel, by decide +kernel⟩
    · exact ⟨"Info", by decide +kernel, by decide +kernel⟩
    · exact ⟨"Detail", by decide +kernel, by decide +kernel⟩
    · exact ⟨"Debug", by decide +kernel, by decide +kernel⟩
    · exact absurd rfl h

end LogTable
end Amazed
