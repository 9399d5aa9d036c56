import Verif.Basic
import Mathlib.Data.List.Basic

/-! # The log and its handlers (`src/lib/log/log.cpp`, `src/lib/log/handler.cpp`, `log/log.h`, `src/lib/common/mutex.cpp`)

A handler is an object named by a number (its address). What a handler does with a message is to append it to what it has
received (the file and the console handler print it, filehandler.cpp:50-52, consolehandler.cpp:47-49). -/

namespace Amazed
namespace LogTable

/-- `CLog::ELevel` (log.h:71-79). -/
inductive Level where
  | critical | error | warning | info | detail | debug | none
deriving DecidableEq, Repr

/-- The values of `ELevel` (log.h:71-79). -/
def Level.value : Level → Int
  | .critical => 100
  | .error => 90
  | .warning => 80
  | .info => 70
  | .detail => 65
  | .debug => 60
  | .none => 0

/-- `GetHeader` (log.cpp:140-170). -/
def header : Level → String
  | .critical => "Critical: "
  | .error => "Error: "
  | .warning => "Warning: "
  | .info => "Info: "
  | .detail => "Detail: "
  | .debug => "Debug: "
  | .none => ""

/-- The text given to the handlers (log.cpp:61-63): the time stamp is added in front when asked for; `now` is the current
time as `timeStampString` prints it (log.cpp:75-90). -/
def compose (now : String) (l : Level) (msg : String) (stamped : Bool) : String :=
  if stamped then now ++ " " ++ (header l ++ msg) else header l ++ msg

/-- `LOG_HANDLER_TABLE_SIZE` (log.h:48). -/
def tableSize : Nat := 8

/-- The table of a new log (log.cpp:49-54). -/
def empty : List (Option Nat) := List.replicate tableSize Option.none

/-- `AddHandler` (log.cpp:128-136): the first vacant position, nothing when there is none. -/
def add : List (Option Nat) → Nat → List (Option Nat)
  | [], _ => []
  | Option.none :: r, h => some h :: r
  | some x :: r, h => some x :: add r h

/-- `RemoveHandler` (log.cpp:113-122). -/
def remove : List (Option Nat) → Nat → List (Option Nat)
  | [], _ => []
  | Option.none :: r, h => Option.none :: remove r h
  | some x :: r, h => if x = h then Option.none :: r else some x :: remove r h

/-! ## One thread -/

/-- The log, the handlers that exist, the mask of each and what each has received. -/
structure St where
  table : List (Option Nat)
  alive : List Nat
  mask : Nat → Int
  got : Nat → List String

/-- Before any handler. -/
def St.init : St := ⟨empty, [], fun _ => 0, fun _ => []⟩

/-- The calls: the constructor and the destructor of a handler, `SetLevelMask`, and one of `LogError`, `LogWarning`,
`LogInfo`, `LogDetail`, `LogDebug`. -/
inductive Op where
  | create (h : Nat)
  | destroy (h : Nat)
  | setMask (h : Nat) (m : Int)
  | log (now : String) (l : Level) (msg : String) (stamped : Bool)

/-- The loop of `logEntry` over the table (log.cpp:64-70). Calling a handler that no longer exists is a use after free. -/
def deliver (alive : List Nat) (mask : Nat → Int) (l : Level) (text : String) :
    List (Option Nat) → (Nat → List String) → Res (Nat → List String)
  | [], got => .ok got
  | Option.none :: r, got => deliver alive mask l text r got
  | some h :: r, got =>
    if h ∈ alive then
      if mask h ≤ l.value then deliver alive mask l text r (fun k => if k = h then got k ++ [text] else got k)
      else deliver alive mask l text r got
    else .ub

/-- One call. The constructor (handler.cpp:43-46) and the destructor (handler.cpp:48) of a handler, `SetLevelMask`
(handler.cpp:50), `logEntry` (log.cpp:58-73). Two objects that exist together have different addresses, and an object is
destroyed or configured only while it exists: the other calls are not made by a program and are without effect here. -/
def step (s : St) : Op → Res St
  | .create h => if h ∈ s.alive then .ok s else
      .ok ⟨add s.table h, h :: s.alive, fun k => if k = h then Level.warning.value else s.mask k, s.got⟩
  | .destroy h => if h ∈ s.alive then .ok { s with table := remove s.table h, alive := s.alive.erase h } else .ok s
  | .setMask h m => if h ∈ s.alive then .ok { s with mask := fun k => if k = h then m else s.mask k } else .ok s
  | .log now l msg stamped =>
    deliver s.alive s.mask l (compose now l msg stamped) s.table s.got >>= fun g => .ok { s with got := g }

/-- A history. -/
def run (s : St) : List Op → Res St
  | [] => .ok s
  | o :: r => step s o >>= fun s' => run s' r

/-! ## Several threads

`logEntry` holds the mutex of the log from before the composition of the message to after the last handler (log.cpp:60, 72).
The registration, the removal and the change of a mask do not take it (log.cpp:113-136, handler.cpp:50). -/

/-- A message, with its level. -/
structure Msg where
  level : Level
  text : String
deriving DecidableEq

/-- What a thread may do. -/
inductive Act where
  | log (m : Msg)
  | create (h : Nat)
  | destroy (h : Nat)
  | setMask (h : Nat) (m : Int)

/-- Where a thread is: outside, before slot `i` of the loop, about to call the handler read in slot `i`, or ended by an
exception a handler threw. -/
inductive Pc where
  | idle
  | scan (m : Msg) (i : Nat)
  | call (m : Msg) (i : Nat) (h : Nat)
  | dead
deriving DecidableEq

/-- A thread: what it has still to do, and where it is. -/
structure Thread where
  todo : List Act
  pc : Pc

/-- The shared state. `order` records which thread took the mutex for which message. -/
structure Sys where
  table : List (Option Nat)
  alive : List Nat
  mask : Nat → Int
  got : Nat → List Msg
  lock : Option Nat
  order : List (Nat × Msg)
  threads : List Thread

/-- The outcome of giving a thread the processor: it cannot move (blocked, or nothing left), it moves, or it touches an object
that does not exist. -/
inductive Out where
  | stay
  | next (s : Sys)
  | crash

/-- Replace a thread. -/
def Sys.put (s : Sys) (t : Nat) (x : Thread) : Sys := { s with threads := s.threads.set t x }

/-- One step of the thread `x`, number `t` (log.cpp:58-73, 113-136, handler.cpp:43-50). `fails` says which messages make a
handler throw: the exception leaves `logEntry` without unlocking the mutex (log.cpp:60-72, mutex.cpp:56-61). -/
def act (fails : Nat → Msg → Bool) (s : Sys) (t : Nat) (x : Thread) : Out :=
  match x.pc with
  | .dead => .stay
  | .idle =>
    match x.todo with
    | [] => .stay
    | .log m :: r =>
      match s.lock with
      | some _ => .stay
      | Option.none => .next ({ s with lock := some t, order := s.order ++ [(t, m)] }.put t ⟨r, .scan m 0⟩)
    | .create h :: r => .next ({ s with table := add s.table h, alive := h :: s.alive, mask := fun k => if k = h then Level.warning.value else s.mask k }.put t ⟨r, .idle⟩)
    | .destroy h :: r => .next ({ s with table := remove s.table h, alive := s.alive.erase h }.put t ⟨r, .idle⟩)
    | .setMask h v :: r => .next ({ s with mask := fun k => if k = h then v else s.mask k }.put t ⟨r, .idle⟩)
  | .scan m i =>
    match s.table[i]? with
    | Option.none => .next ({ s with lock := Option.none }.put t ⟨x.todo, .idle⟩)
    | some Option.none => .next (s.put t ⟨x.todo, .scan m (i + 1)⟩)
    | some (some h) => .next (s.put t ⟨x.todo, .call m i h⟩)
  | .call m i h =>
    if h ∈ s.alive then
      if s.mask h ≤ m.level.value then
        if fails h m then .next (s.put t ⟨x.todo, .dead⟩)
        else .next ({ s with got := fun k => if k = h then s.got k ++ [m] else s.got k }.put t ⟨x.todo, .scan m (i + 1)⟩)
      else .next (s.put t ⟨x.todo, .scan m (i + 1)⟩)
    else .crash

/-- Give the processor to thread `t`. -/
def sched (fails : Nat → Msg → Bool) (s : Sys) (t : Nat) : Out :=
  match s.threads[t]? with
  | Option.none => .stay
  | some x => act fails s t x

/-- An execution: the threads are given the processor in the given order. -/
def exec (fails : Nat → Msg → Bool) (s : Sys) : List Nat → Res Sys
  | [] => .ok s
  | t :: r =>
    match sched fails s t with
    | .stay => exec fails s r
    | .next s' => exec fails s' r
    | .crash => .ub

end LogTable
end Amazed
