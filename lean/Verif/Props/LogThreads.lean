import Verif.Props.LogTableProps

/-! # C181 : logging from several threads -/

set_option linter.unusedSectionVars false
set_option linter.unusedVariables false

namespace Amazed
namespace LogTable

/-! ## Specification -/

/-- The messages a thread has still to log. -/
def logs : List Act → List Msg
  | [] => []
  | .log m :: r => m :: logs r
  | .create _ :: r => logs r
  | .destroy _ :: r => logs r
  | .setMask _ _ :: r => logs r

/-- A thread that only logs. -/
def OnlyLogs (x : Thread) : Prop := ∀ a ∈ x.todo, ∃ m, a = .log m

/-- A start: the mutex is free, the handlers of the table exist, each once, and the threads are about to log. -/
structure Start (s : Sys) : Prop where
  lock : s.lock = none
  order : s.order = []
  nodup : (somes s.table).Nodup
  alive : ∀ h ∈ somes s.table, h ∈ s.alive
  idle : ∀ x ∈ s.threads, x.pc = .idle
  only : ∀ x ∈ s.threads, OnlyLogs x

/-- The messages of a list a handler receives: it is in the table and its mask is not above the level. -/
def forHandler (s : Sys) (h : Nat) (ms : List Msg) : List Msg :=
  ms.filter fun m => decide (h ∈ somes s.table ∧ s.mask h ≤ m.level.value)

/-- A thread that has nothing left to do. -/
def Thread.done (x : Thread) : Prop := x.todo = [] ∧ x.pc = .idle

/-- No handler throws. -/
def noFail : Nat → Msg → Bool := fun _ _ => false

/-! ## The invariant -/

/-- What the handlers have received when the thread of the mutex is at `pc`. -/
def Delivered (s0 s : Sys) (t : Nat) (pc : Pc) : Prop :=
  match pc with
  | .idle => False
  | .dead => False
  | .scan m i => ∃ o, s.order = o ++ [(t, m)] ∧ ∀ k, s.got k = s0.got k ++ forHandler s0 k (o.map (·.2)) ++
      (if k ∈ somes (s0.table.take i) ∧ s0.mask k ≤ m.level.value then [m] else [])
  | .call m i h => s0.table[i]? = some (some h) ∧ ∃ o, s.order = o ++ [(t, m)] ∧ ∀ k, s.got k = s0.got k ++ forHandler s0 k (o.map (·.2)) ++
      (if k ∈ somes (s0.table.take i) ∧ s0.mask k ≤ m.level.value then [m] else [])

structure Inv (s0 s : Sys) : Prop where
  table : s.table = s0.table
  alive : s.alive = s0.alive
  mask : s.mask = s0.mask
  size : s.threads.length = s0.threads.length
  only : ∀ (t : Nat) (x : Thread), s.threads[t]? = some x → OnlyLogs x
  holder : ∀ (t : Nat) (x : Thread), s.threads[t]? = some x → s.lock ≠ some t → x.pc = .idle
  free : s.lock = none → ∀ k, s.got k = s0.got k ++ forHandler s0 k (s.order.map (·.2))
  held : ∀ t, s.lock = some t → ∃ x, s.threads[t]? = some x ∧ Delivered s0 s t x.pc
  program : ∀ (t : Nat) (x x0 : Thread), s.threads[t]? = some x → s0.threads[t]? = some x0 →
    (s.order.filter fun p => decide (p.1 = t)).map (·.2) ++ logs x.todo = logs x0.todo
  tags : ∀ p ∈ s.order, p.1 < s0.threads.length

theorem inv_start {s0 : Sys} (h : Start s0) : Inv s0 s0 where
  table := rfl
  alive := rfl
  mask := rfl
  size := rfl
  only t x e := h.only x (List.mem_of_getElem? e)
  holder t x e _ := h.idle x (List.mem_of_getElem? e)
  free _ k := by rw [h.order]; simp [forHandler]
  held t e := by rw [h.lock] at e; cases e
  program t x x0 e e0 := by rw [e] at e0; cases e0; rw [h.order]; rfl
  tags p hp := by rw [h.order] at hp; cases hp

theorem get_put {s : Sys} {t : Nat} {x : Thread} (y : Thread) (u : Nat) (ht : s.threads[t]? = some x) :
    (s.put t y).threads[u]? = if u = t then some y else s.threads[u]? := by
  unfold Sys.put
  rw [List.getElem?_set]
  have : t < s.threads.length := (List.getElem?_eq_some_iff.1 ht).1
  by_cases c : t = u
  · subst c; rw [if_pos rfl, if_pos rfl, if_pos this]
  · rw [if_neg c, if_neg (Ne.symm c)]

theorem somes_append (a b : List (Option Nat)) : somes (a ++ b) = somes a ++ somes b := by
  unfold somes; rw [List.filterMap_append]

theorem somes_take_succ (l : List (Option Nat)) (i : Nat) (o : Option Nat) (h : l[i]? = some o) :
    somes (l.take (i + 1)) = somes (l.take i) ++ o.toList := by
  rw [List.take_add_one, somes_append, h]
  cases o <;> rfl

theorem not_mem_take {l : List (Option Nat)} (hn : (somes l).Nodup) {i h : Nat} (hi : l[i]? = some (some h)) :
    h ∉ somes (l.take i) := by
  intro hc
  have e : somes l = somes (l.take (i + 1)) ++ somes (l.drop (i + 1)) := by
    rw [← somes_append, List.take_append_drop]
  rw [somes_take_succ l i _ hi, List.append_assoc] at e
  rw [e, List.nodup_append] at hn
  exact hn.2.2 h hc h (by simp) rfl

theorem logs_cons {x : Thread} (h : OnlyLogs x) {a : Act} {r : List Act} (e : x.todo = a :: r) :
    ∃ m, a = .log m ∧ OnlyLogs ⟨r, x.pc⟩ := by
  obtain ⟨m, hm⟩ := h a (by rw [e]; exact List.mem_cons_self ..)
  exact ⟨m, hm, fun b hb => h b (by rw [e]; exact List.mem_cons_of_mem _ hb)⟩

/-- The effect of a step that changes only the position of the holder of the mutex and what the handlers received. -/
theorem inv_move {s0 s : Sys} (hi : Inv s0 s) {t : Nat} {x : Thread} (ht : s.threads[t]? = some x)
    (hl : s.lock = some t) (pc : Pc) (got : Nat → List Msg)
    (hd : Delivered s0 { s with got := got } t pc) :
    Inv s0 ({ s with got := got }.put t ⟨x.todo, pc⟩) := by
  have gp := fun u => get_put (s := { s with got := got }) ⟨x.todo, pc⟩ u ht
  refine ⟨hi.table, hi.alive, hi.mask, ?_, ?_, ?_, ?_, ?_, ?_, hi.tags⟩
  · unfold Sys.put; rw [List.length_set]; exact hi.size
  · intro u y hy
    rw [gp u] at hy
    split at hy
    · cases hy; exact hi.only t x ht
    · exact hi.only u y hy
  · intro u y hy hne
    rw [gp u] at hy
    split at hy
    · rename_i c; subst c; exact absurd hl hne
    · exact hi.holder u y hy hne
  · intro c; change s.lock = none at c; rw [hl] at c; cases c
  · intro u hu
    change s.lock = some u at hu
    rw [hl] at hu; cases hu
    refine ⟨⟨x.todo, pc⟩, by rw [gp t, if_pos rfl], ?_⟩
    exact hd
  · intro u y y0 hy hy0
    rw [gp u] at hy
    split at hy
    · rename_i c; subst c; cases hy; exact hi.program u x y0 ht hy0
    · exact hi.program u y y0 hy hy0

/-- One step of any thread keeps the invariant, and touches no destroyed handler. -/
theorem inv_sched {s0 : Sys} (h0 : Start s0) {s : Sys} (hi : Inv s0 s) (t : Nat) :
    sched noFail s t ≠ .crash ∧ ∀ s', sched noFail s t = .next s' → Inv s0 s' := by
  unfold sched
  cases hx : s.threads[t]? with
  | none => exact ⟨fun c => (nomatch c), fun s' c => (nomatch c)⟩
  | some x =>
    dsimp only
    unfold act
    cases hp : x.pc with
    | dead => exact ⟨fun c => (nomatch c), fun s' c => (nomatch c)⟩
    | idle =>
      cases htd : x.todo with
      | nil => exact ⟨fun c => (nomatch c), fun s' c => (nomatch c)⟩
      | cons a r =>
        obtain ⟨m, rfl, hr⟩ := logs_cons (hi.only t x hx) htd
        cases hl : s.lock with
        | some u => exact ⟨fun c => (nomatch c), fun s' c => (nomatch c)⟩
        | none =>
          refine ⟨fun c => (nomatch c), fun s' c => ?_⟩
          cases c
          have gp := fun u => get_put (s := { s with lock := some t, order := s.order ++ [(t, m)] }) ⟨r, .scan m 0⟩ u hx
          have hlt : t < s0.threads.length := by
            rw [← hi.size]; exact (List.getElem?_eq_some_iff.1 hx).1
          refine ⟨hi.table, hi.alive, hi.mask, ?_, ?_, ?_, ?_, ?_, ?_, ?_⟩
          · unfold Sys.put; rw [List.length_set]; exact hi.size
          · intro u y hy
            rw [gp u] at hy
            split at hy
            · cases hy; exact hr
            · exact hi.only u y hy
          · intro u y hy hne
            rw [gp u] at hy
            split at hy
            · rename_i c; subst c; exact absurd rfl hne
            · exact hi.holder u y hy (by rw [hl]; exact fun c => (nomatch c))
          · intro c; cases c
          · intro u hu
            cases hu
            refine ⟨⟨r, .scan m 0⟩, by rw [gp t, if_pos rfl], s.order, rfl, ?_⟩
            intro k
            have := hi.free hl k
            show s.got k = _
            rw [this]
            simp [somes]
          · intro u y y0 hy hy0
            rw [gp u] at hy
            show ((s.order ++ [(t, m)]).filter _).map _ ++ _ = _
            rw [List.filter_append, List.map_append]
            split at hy
            · rename_i c; subst c; cases hy
              rw [← hi.program u x y0 hx hy0, htd]
              simp [logs]
            · rename_i c
              rw [← hi.program u y y0 hy hy0]
              simp [Ne.symm c]
          · intro p hp
            rcases List.mem_append.1 hp with hp | hp
            · exact hi.tags p hp
            · rw [List.mem_singleton.1 hp]; exact hlt
    | scan m i =>
      have hl : s.lock = some t := by
        apply Classical.byContradiction
        intro c
        have := hi.holder t x hx c
        rw [hp] at this; cases this
      obtain ⟨y, hy, hd⟩ := hi.held t hl
      rw [hx] at hy; cases hy
      rw [hp] at hd
      obtain ⟨o, ho, hg⟩ := hd
      dsimp only
      cases hti' : s.table[i]? with
      | none =>
        have hti : s0.table[i]? = none := by rw [← hi.table]; exact hti'
        refine ⟨fun c => (nomatch c), fun s' c => ?_⟩
        cases c
        have gp := fun u => get_put (s := { s with lock := none }) ⟨x.todo, .idle⟩ u hx
        refine ⟨hi.table, hi.alive, hi.mask, ?_, ?_, ?_, ?_, ?_, ?_, hi.tags⟩
        · unfold Sys.put; rw [List.length_set]; exact hi.size
        · intro u y hy
          rw [gp u] at hy
          split at hy
          · cases hy; exact hi.only t x hx
          · exact hi.only u y hy
        · intro u y hy hne
          rw [gp u] at hy
          split at hy
          · cases hy; rfl
          · rename_i c
            exact hi.holder u y hy (by rw [hl]; intro e; cases e; exact c rfl)
        · intro _ k
          show s.got k = s0.got k ++ forHandler s0 k (s.order.map (·.2))
          rw [hg k, ho, List.map_append, List.append_assoc]
          congr 1
          have : s0.table.take i = s0.table := List.take_of_length_le (List.getElem?_eq_none_iff.1 hti)
          rw [this]
          unfold forHandler
          rw [List.filter_append]
          congr 1
          by_cases c : k ∈ somes s0.table ∧ s0.mask k ≤ m.level.value <;> simp [c]
        · intro u hu; cases hu
        · intro u y y0 hy hy0
          rw [gp u] at hy
          split at hy
          · rename_i c; subst c; cases hy; exact hi.program u x y0 hx hy0
          · exact hi.program u y y0 hy hy0
      | some w =>
        have hti : s0.table[i]? = some w := by rw [← hi.table]; exact hti'
        cases w with
        | none =>
          refine ⟨fun c => (nomatch c), fun s' c => ?_⟩
          cases c
          refine inv_move hi hx hl (.scan m (i + 1)) s.got ⟨o, ho, ?_⟩
          intro k
          rw [somes_take_succ _ _ _ hti]
          simpa using hg k
        | some h =>
          refine ⟨fun c => (nomatch c), fun s' c => ?_⟩
          cases c
          exact inv_move hi hx hl (.call m i h) s.got ⟨hti, o, ho, hg⟩
    | call m i h =>
      have hl : s.lock = some t := by
        apply Classical.byContradiction
        intro c
        have := hi.holder t x hx c
        rw [hp] at this; cases this
      obtain ⟨y, hy, hd⟩ := hi.held t hl
      rw [hx] at hy; cases hy
      rw [hp] at hd
      obtain ⟨hti, o, ho, hg⟩ := hd
      have hmem : h ∈ somes s0.table := mem_somes.2 (List.mem_of_getElem? hti)
      have hna := not_mem_take h0.nodup hti
      dsimp only
      rw [if_pos (by rw [hi.alive]; exact h0.alive h hmem)]
      have hmk : s.mask h = s0.mask h := by rw [hi.mask]
      by_cases c : s0.mask h ≤ m.level.value
      · rw [if_pos (by rw [hmk]; exact c)]
        refine ⟨fun c => (nomatch c), fun s' e => ?_⟩
        have e' : Out.next ({ s with got := fun k => if k = h then s.got k ++ [m] else s.got k }.put t ⟨x.todo, .scan m (i + 1)⟩) = .next s' := e
        cases e'
        refine inv_move hi hx hl (.scan m (i + 1)) (fun k => if k = h then s.got k ++ [m] else s.got k) ⟨o, ho, ?_⟩
        intro k
        rw [somes_take_succ _ _ _ hti]
        show (if k = h then s.got k ++ [m] else s.got k) = _
        rw [hg k]
        by_cases ck : k = h
        · subst ck; simp [hna, c]
        · simp [ck]
      · rw [if_neg (by rw [hmk]; exact c)]
        refine ⟨fun c => (nomatch c), fun s' e => ?_⟩
        cases e
        refine inv_move hi hx hl (.scan m (i + 1)) s.got ⟨o, ho, ?_⟩
        intro k
        rw [somes_take_succ _ _ _ hti]
        show s.got k = _
        rw [hg k]
        by_cases ck : k = h
        · subst ck; simp [c]
        · simp [ck]

theorem inv_exec {s0 : Sys} (h0 : Start s0) : ∀ (sch : List Nat) (s : Sys), Inv s0 s →
    ∃ s', exec noFail s sch = .ok s' ∧ Inv s0 s'
  | [], s, hi => ⟨s, rfl, hi⟩
  | t :: r, s, hi => by
    obtain ⟨h1, h2⟩ := inv_sched h0 hi t
    unfold exec
    cases hs : sched noFail s t with
    | stay => exact inv_exec h0 r s hi
    | next s' => exact inv_exec h0 r s' (h2 s' hs)
    | crash => exact absurd hs h1

/-! ## C181 -/

/-- C181 (delivery), partial: any number of threads log through any fixed set of handlers, in any interleaving. No destroyed
handler is touched, and whenever no thread is inside the log, there is one order of the messages, in which the messages of each
thread come in the order the thread logs them, such that every handler has received exactly the messages of this order at a
level not below its mask, each once: the handlers agree on the order, no message is lost, repeated or mixed. Missing for the
full claim: handlers created or destroyed while other threads log, and handlers that throw, see the counterexamples. -/
theorem C181_delivery_partial (s0 : Sys) (h0 : Start s0) (sch : List Nat) :
    ∃ s, exec noFail s0 sch = .ok s ∧ (s.lock = none →
      (∀ k, s.got k = s0.got k ++ forHandler s0 k (s.order.map (·.2))) ∧
      (∀ p ∈ s.order, p.1 < s0.threads.length) ∧
      ∀ (t : Nat) (x x0 : Thread), s.threads[t]? = some x → s0.threads[t]? = some x0 →
        (s.order.filter fun p => decide (p.1 = t)).map (·.2) ++ logs x.todo = logs x0.todo) := by
  obtain ⟨s, e, hi⟩ := inv_exec h0 sch s0 (inv_start h0)
  exact ⟨s, e, fun hl => ⟨hi.free hl, hi.tags, hi.program⟩⟩

/-- C181 (everything arrives): when all threads are done, the order contains all the messages of all the threads. -/
theorem C181_complete (s0 : Sys) (h0 : Start s0) (sch : List Nat) (s : Sys) (e : exec noFail s0 sch = .ok s)
    (hd : ∀ x ∈ s.threads, x.done) :
    s.lock = none ∧ (∀ k, s.got k = s0.got k ++ forHandler s0 k (s.order.map (·.2))) ∧
    ∀ (t : Nat) (x0 : Thread), s0.threads[t]? = some x0 →
      (s.order.filter fun p => decide (p.1 = t)).map (·.2) = logs x0.todo := by
  obtain ⟨s', e', hi⟩ := inv_exec h0 sch s0 (inv_start h0)
  rw [e] at e'; cases e'
  have hl : s.lock = none := by
    cases hl : s.lock with
    | none => rfl
    | some t =>
      obtain ⟨x, hx, hde⟩ := hi.held t hl
      have := (hd x (List.mem_of_getElem? hx)).2
      rw [this] at hde
      exact hde.elim
  refine ⟨hl, hi.free hl, fun t x0 ht => ?_⟩
  have hlt : t < s.threads.length := by
    rw [hi.size]; exact (List.getElem?_eq_some_iff.1 ht).1
  have := hi.program t _ x0 (List.getElem?_eq_getElem hlt) ht
  rw [(hd _ (List.getElem_mem hlt)).1] at this
  simpa [logs] using this

/-- C181 (no deadlock): after any interleaving, some thread can move unless all are done. -/
theorem C181_progress (s0 : Sys) (h0 : Start s0) (sch : List Nat) (s : Sys) (e : exec noFail s0 sch = .ok s)
    (hn : ¬ ∀ x ∈ s.threads, x.done) : ∃ t s', sched noFail s t = .next s' := by
  obtain ⟨s', e', hi⟩ := inv_exec h0 sch s0 (inv_start h0)
  rw [e] at e'; cases e'
  cases hl : s.lock with
  | some t =>
    obtain ⟨x, hx, hde⟩ := hi.held t hl
    refine ⟨t, ?_⟩
    have hc := (inv_sched h0 hi t).1
    cases hs : sched noFail s t with
    | next s' => exact ⟨s', rfl⟩
    | crash => exact absurd hs hc
    | stay =>
      exfalso
      unfold sched at hs
      rw [hx] at hs
      dsimp only at hs
      unfold act at hs
      cases hp : x.pc with
      | idle => rw [hp] at hde; exact hde
      | dead => rw [hp] at hde; exact hde
      | scan m i =>
        rw [hp] at hs
        dsimp only at hs
        split at hs <;> cases hs
      | call m i h =>
        rw [hp] at hs
        dsimp only at hs
        split at hs
        · split at hs
          · split at hs <;> cases hs
          · cases hs
        · cases hs
  | none =>
    apply Classical.byContradiction
    intro hno
    apply hn
    intro x hx
    obtain ⟨t, ht⟩ := List.mem_iff_getElem?.1 hx
    have hp := hi.holder t x ht (by rw [hl]; exact fun c => (nomatch c))
    refine ⟨?_, hp⟩
    cases htd : x.todo with
    | nil => rfl
    | cons a r =>
      exfalso
      obtain ⟨m, rfl, _⟩ := logs_cons (hi.only t x ht) htd
      apply hno
      refine ⟨t, { s with lock := some t, order := s.order ++ [(t, m)] }.put t ⟨r, .scan m 0⟩, ?_⟩
      unfold sched
      rw [ht]
      dsimp only
      unfold act
      rw [hp, htd, hl]

/-- The work a thread has left: for each message, its turn, two steps for each position of the table, and the release. -/
def workOf (n : Nat) (x : Thread) : Nat :=
  (2 * n + 2) * x.todo.length + match x.pc with
    | .idle => 0
    | .dead => 0
    | .scan _ i => 2 * (n - i) + 1
    | .call _ i _ => 2 * (n - i)

/-- The work left. -/
def work (s : Sys) : Nat := (s.threads.map (workOf s.table.length)).sum

theorem work_put {s : Sys} {t : Nat} {x : Thread} (y : Thread) (ht : s.threads[t]? = some x)
    (h : workOf s.table.length y < workOf s.table.length x) : work (s.put t y) < work s := by
  unfold work Sys.put
  dsimp only
  generalize s.threads = l at *
  generalize s.table.length = n at *
  induction l generalizing t with
  | nil => cases ht
  | cons a r ih =>
    cases t with
    | zero => cases ht; simp only [List.set_cons_zero, List.map_cons, List.sum_cons]; omega
    | succ t =>
      have := ih (t := t) ht
      simp only [List.set_cons_succ, List.map_cons, List.sum_cons]
      omega

/-- C181 (the threads end): every step uses up work, so in any interleaving the threads move at most as often as the work of
the start. -/
theorem C181_terminates (s0 : Sys) (h0 : Start s0) (sch : List Nat) (s : Sys) (e : exec noFail s0 sch = .ok s)
    (t : Nat) (s' : Sys) (hs : sched noFail s t = .next s') : work s' < work s := by
  obtain ⟨s'', e', hi⟩ := inv_exec h0 sch s0 (inv_start h0)
  rw [e] at e'; cases e'
  unfold sched at hs
  cases hx : s.threads[t]? with
  | none => rw [hx] at hs; cases hs
  | some x =>
    rw [hx] at hs
    dsimp only at hs
    unfold act at hs
    cases hp : x.pc with
    | dead => rw [hp] at hs; cases hs
    | idle =>
      rw [hp] at hs
      cases htd : x.todo with
      | nil => rw [htd] at hs; cases hs
      | cons a r =>
        obtain ⟨m, rfl, _⟩ := logs_cons (hi.only t x hx) htd
        rw [htd] at hs
        cases hl : s.lock with
        | some u => rw [hl] at hs; cases hs
        | none =>
          rw [hl] at hs
          cases hs
          refine work_put (s := { s with lock := some t, order := s.order ++ [(t, m)] }) ⟨r, .scan m 0⟩ hx ?_
          show workOf s.table.length _ < workOf s.table.length x
          unfold workOf
          rw [hp, htd, List.length_cons]
          dsimp only
          rw [Nat.mul_add]
          omega
    | scan m i =>
      rw [hp] at hs
      dsimp only at hs
      cases hti : s.table[i]? with
      | none =>
        rw [hti] at hs; cases hs
        refine work_put (s := { s with lock := none }) ⟨x.todo, .idle⟩ hx ?_
        show workOf s.table.length _ < workOf s.table.length x
        unfold workOf
        rw [hp]
        dsimp only
        omega
      | some w =>
        have hlt : i < s.table.length := (List.getElem?_eq_some_iff.1 hti).1
        cases w with
        | none =>
          rw [hti] at hs; cases hs
          refine work_put ⟨x.todo, .scan m (i + 1)⟩ hx ?_
          unfold workOf; rw [hp]; dsimp only; omega
        | some h =>
          rw [hti] at hs; cases hs
          refine work_put ⟨x.todo, .call m i h⟩ hx ?_
          unfold workOf; rw [hp]; dsimp only; omega
    | call m i h =>
      have hl : s.lock = some t := by
        apply Classical.byContradiction
        intro c
        have := hi.holder t x hx c
        rw [hp] at this; cases this
      obtain ⟨y, hy, hd⟩ := hi.held t hl
      rw [hx] at hy; cases hy
      rw [hp] at hd
      have hlt : i < s.table.length := by rw [hi.table]; exact (List.getElem?_eq_some_iff.1 hd.1).1
      have hw : workOf s.table.length ⟨x.todo, .scan m (i + 1)⟩ < workOf s.table.length x := by
        unfold workOf; rw [hp]; dsimp only; omega
      rw [hp] at hs
      dsimp only at hs
      split at hs
      · split at hs
        · have e' : Out.next ({ s with got := fun k => if k = h then s.got k ++ [m] else s.got k }.put t ⟨x.todo, .scan m (i + 1)⟩) = .next s' := hs
          cases e'
          exact work_put (s := { s with got := fun k => if k = h then s.got k ++ [m] else s.got k }) ⟨x.todo, .scan m (i + 1)⟩ hx hw
        · cases hs
          exact work_put ⟨x.todo, .scan m (i + 1)⟩ hx hw
      · cases hs

/-- C181 (a handler that throws): once a thread has ended with an exception of a handler inside the log, it holds the mutex for
ever; whatever the interleaving after that, no message of any thread reaches any handler. -/
theorem C181_throw_blocks (fails : Nat → Msg → Bool) (t : Nat) : ∀ (sch : List Nat) (s s' : Sys), s.lock = some t →
    (∃ x, s.threads[t]? = some x ∧ x.pc = .dead) →
    (∀ (u : Nat) (y : Thread), s.threads[u]? = some y → u ≠ t → y.pc = .idle) →
    exec fails s sch = .ok s' → s'.lock = some t ∧ s'.order = s.order ∧ s'.got = s.got ∧
      (∃ x, s'.threads[t]? = some x ∧ x.pc = .dead)
  | [], s, s', hl, hd, hi, e => by cases e; exact ⟨hl, rfl, rfl, hd⟩
  | u :: r, s, s', hl, hd, hi, e => by
    unfold exec at e
    have key : ∀ s1, sched fails s u = .next s1 → s1.lock = some t ∧ s1.order = s.order ∧ s1.got = s.got ∧
        (∃ x, s1.threads[t]? = some x ∧ x.pc = .dead) ∧
        (∀ (v : Nat) (y : Thread), s1.threads[v]? = some y → v ≠ t → y.pc = .idle) := by
      intro s1 h1
      obtain ⟨x, hx, hp⟩ := hd
      unfold sched at h1
      cases hy : s.threads[u]? with
      | none => rw [hy] at h1; cases h1
      | some y =>
        rw [hy] at h1
        dsimp only at h1
        unfold act at h1
        by_cases c : u = t
        · subst c
          rw [hx] at hy; cases hy
          rw [hp] at h1; cases h1
        · rw [hi u y hy c] at h1
          dsimp only at h1
          have fin : ∀ (z : Thread) (s2 : Sys), s2.threads = s.threads → z.pc = .idle →
              (∃ x, (s2.put u z).threads[t]? = some x ∧ x.pc = .dead) ∧
              (∀ (v : Nat) (y : Thread), (s2.put u z).threads[v]? = some y → v ≠ t → y.pc = .idle) := by
            intro z s2 h2 hz
            have gp := fun v => get_put (s := s2) (t := u) (x := y) z v (by rw [h2]; exact hy)
            refine ⟨⟨x, by rw [gp t, if_neg (Ne.symm c), h2]; exact hx, hp⟩, ?_⟩
            intro v w hw hv
            rw [gp v, h2] at hw
            split at hw
            · cases hw; exact hz
            · exact hi v w hw hv
          cases htd : y.todo with
          | nil => rw [htd] at h1; cases h1
          | cons a q =>
            rw [htd] at h1
            cases a with
            | log m => rw [hl] at h1; cases h1
            | create h => cases h1; exact ⟨hl, rfl, rfl, fin ⟨q, .idle⟩ _ rfl rfl⟩
            | destroy h => cases h1; exact ⟨hl, rfl, rfl, fin ⟨q, .idle⟩ _ rfl rfl⟩
            | setMask h v => cases h1; exact ⟨hl, rfl, rfl, fin ⟨q, .idle⟩ _ rfl rfl⟩
    cases hs : sched fails s u with
    | stay => rw [hs] at e; exact C181_throw_blocks fails t r s s' hl hd hi e
    | crash => rw [hs] at e; cases e
    | next s1 =>
      rw [hs] at e
      obtain ⟨a1, a2, a3, a4, a5⟩ := key s1 hs
      obtain ⟨b1, b2, b3, b4⟩ := C181_throw_blocks fails t r s1 s' a1 a4 a5 e
      exact ⟨b1, b2.trans a2, b3.trans a3, b4⟩

/-- Two threads that log, one handler. -/
def two : Sys := ⟨[some 5, none], [5], fun _ => 80, fun _ => [], none, [],
  [⟨[.log ⟨.error, "a"⟩, .log ⟨.info, "b"⟩], .idle⟩, ⟨[.log ⟨.warning, "c"⟩], .idle⟩]⟩

example : Start two := by
  refine ⟨rfl, rfl, by decide, by decide, ?_, ?_⟩
  · intro x hx
    rcases List.mem_cons.1 hx with rfl | hx
    · rfl
    · rw [List.mem_singleton.1 hx]
  · intro x hx a ha
    rcases List.mem_cons.1 hx with rfl | hx
    · rcases List.mem_cons.1 ha with rfl | ha
      · exact ⟨_, rfl⟩
      · exact ⟨_, List.mem_singleton.1 ha⟩
    · rw [List.mem_singleton.1 hx] at ha
      exact ⟨_, List.mem_singleton.1 ha⟩

/-- What a handler has after an execution. -/
def gotAfter (r : Res Sys) (h : Nat) : Option (List Msg) :=
  match r with
  | .ok s => some (s.got h)
  | _ => none

example : gotAfter (exec noFail two [1, 0, 1, 0, 1, 1, 1, 0, 0, 0, 0, 0, 0, 0, 0, 0]) 5 =
    some [⟨.warning, "c"⟩, ⟨.error, "a"⟩] := by decide +kernel

/-- C181 (counterexample): one thread logs, another destroys the handler between the moment the first reads it in the table and
the moment it calls it: the log calls a handler that does not exist any more. -/
theorem C181_destroy_counterexample : ∃ s0 : Sys, s0.table = [some 5] ∧ s0.alive = [5] ∧ s0.lock = none ∧
    s0.threads.map (·.pc) = [.idle, .idle] ∧ exec noFail s0 [0, 0, 1, 0] = .ub :=
  ⟨⟨[some 5], [5], fun _ => 80, fun _ => [], none, [],
    [⟨[.log ⟨.error, "a"⟩], .idle⟩, ⟨[.destroy 5], .idle⟩]⟩, rfl, rfl, rfl, rfl, rfl⟩

/-- C181 (counterexample): a handler that throws once; the other thread never logs its message, in any interleaving. -/
theorem C181_throw_counterexample : ∃ s0 s : Sys, s0.lock = none ∧ s0.threads.map (·.pc) = [.idle, .idle] ∧
    exec (fun _ m => decide (m.text = "a")) s0 [0, 0, 0] = .ok s ∧
    ∀ (sch : List Nat) (s' : Sys), exec (fun _ m => decide (m.text = "a")) s sch = .ok s' → s'.got 5 = [] := by
  refine ⟨⟨[some 5], [5], fun _ => 80, fun _ => [], none, [],
    [⟨[.log ⟨.error, "a"⟩], .idle⟩, ⟨[.log ⟨.error, "b"⟩], .idle⟩]⟩,
    ⟨[some 5], [5], fun _ => 80, fun _ => [], some 0, [(0, ⟨.error, "a"⟩)],
    [⟨[], .dead⟩, ⟨[.log ⟨.error, "b"⟩], .idle⟩]⟩, rfl, rfl, ?_, ?_⟩
  · rfl
  · intro sch s' e
    obtain ⟨_, _, h, _⟩ := C181_throw_blocks _ 0 sch _ s' rfl ⟨_, rfl, rfl⟩ (by
      intro u y hy hu
      cases u with
      | zero => exact absurd rfl hu
      | succ u =>
        cases u with
        | zero => cases hy; rfl
        | succ u => cases hy) e
    rw [h]

end LogTable
end Amazed
