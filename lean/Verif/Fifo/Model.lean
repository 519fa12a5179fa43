import Verif.Base

/-!
# The event queue and its threads: `src/osip2/port_fifo.c`

Any number of threads call the functions of the queue; the threads are interleaved statement by
statement, in any order. The list behind the queue is a sequence with the operations of
`osip_list.c` (justified by `c25_add`, `c25_get`, `c25_remove`, `c25_size`). The mutex is a lock with
a holder, the semaphore a counter. Elements are numbers standing for `void *`.
-/

set_option autoImplicit false

namespace Osip

/-- `enum osip_fifo_state` as used (include/osip2/osip_fifo.h:49). -/
inductive FState
  | ok | empty
deriving DecidableEq, Repr

/-- Where a thread stands. `add…` belong to `osip_fifo_add` (src/osip2/port_fifo.c:42-58; with
`front` to `osip_fifo_insert`, 61-77), `get…` to `osip_fifo_get` (97-135), `tryWait` to the start of
`osip_fifo_tryget` (137-146), which goes on like `osip_fifo_get`, `size…` to `osip_fifo_size`
(80-94). -/
inductive Pc
  | idle
  /-- before `osip_mutex_lock` -/
  | addLock (el : Nat) (front : Bool)
  /-- before `osip_list_add` -/
  | addIns (el : Nat) (front : Bool)
  /-- before `ff->state = osip_ok` -/
  | addState
  /-- before `osip_sem_post` -/
  | addPost
  /-- before `osip_mutex_unlock` -/
  | addUnlock
  /-- before `osip_sem_wait` -/
  | getWait
  /-- before `osip_sem_trywait` -/
  | tryWait
  /-- before `osip_mutex_lock` -/
  | getLock
  /-- before `if (ff->state != osip_empty)` -/
  | getTest
  /-- before `el = osip_list_get (&ff->queue, 0)` -/
  | getRead
  /-- before `osip_list_remove (&ff->queue, 0)` -/
  | getRemove (el : Option Nat)
  /-- before the update of `ff->state` from the size of the list -/
  | getSize (el : Option Nat)
  /-- before `osip_mutex_unlock` -/
  | getUnlock (el : Option Nat)
  | sizeLock
  | sizeRead
  | sizeUnlock (n : Nat)
deriving DecidableEq, Repr

/-- A call. -/
inductive FCall
  | add (el : Nat) | insert (el : Nat) | get | tryget | size
deriving DecidableEq, Repr

/-- What happened, in the order of time. -/
inductive FEv
  /-- thread `i` put an element into the list, at the front or at the back -/
  | put (i : Nat) (el : Nat) (front : Bool)
  /-- thread `i` took the first element out of the list -/
  | took (i : Nat) (el : Option Nat)
  /-- `osip_fifo_get` or `osip_fifo_tryget` of thread `i` returned after passing the semaphore -/
  | ret (i : Nat) (el : Option Nat)
  /-- `osip_fifo_get` or `osip_fifo_tryget` of thread `i` returned NULL at the semaphore -/
  | refused (i : Nat)
  /-- `osip_fifo_add` or `osip_fifo_insert` of thread `i` returned (always with success) -/
  | added (i : Nat)
  /-- `osip_fifo_size` of thread `i` returned -/
  | sized (i : Nat) (n : Nat)
deriving DecidableEq, Repr

/-- `osip_fifo_t` (include/osip2/osip_fifo.h), the threads and the history. -/
structure Fifo where
  mutex : Option Nat := none
  sem : Nat := 0
  queue : List Nat := []
  st : FState := .empty
  threads : List Pc := []
  trace : List FEv := []
deriving Repr, DecidableEq

/-- What the scheduler lets a thread do. -/
inductive Act
  /-- an idle thread begins a call -/
  | start (c : FCall)
  /-- the next statement; memory is available or not for `osip_list_add` -/
  | go (malloc : Bool)
  /-- `osip_sem_wait` returns an error, e.g. after a signal -/
  | interrupted
  /-- a new thread, idle -/
  | spawn
deriving DecidableEq, Repr

/-- A thread reaches a new place. -/
def Fifo.at_ (f : Fifo) (i : Nat) (pc : Pc) : Fifo := { f with threads := f.threads.set i pc }

/-- Adds to the history. -/
def Fifo.log (f : Fifo) (e : FEv) : Fifo := { f with trace := f.trace ++ [e] }

/-- `osip_mutex_lock`; `none` if the thread has to wait. -/
def Fifo.lock (f : Fifo) (i : Nat) : Option Fifo :=
  match f.mutex with
  | none => some { f with mutex := some i }
  | some _ => none

/-- `osip_mutex_unlock`. -/
def Fifo.unlock (f : Fifo) : Fifo := { f with mutex := none }

/-- The next statement of thread `i` standing at `pc`; `none` if it has to wait. -/
def Fifo.go (f : Fifo) (i : Nat) (malloc : Bool) (pc : Pc) : Option Fifo :=
  match pc with
  | .idle => none
  | .addLock el fr => (f.lock i).map (·.at_ i (.addIns el fr))
  | .addIns el fr =>
    if malloc then
      some ((({ f with queue := if fr then el :: f.queue else f.queue ++ [el] }).log
        (.put i el fr)).at_ i .addState)
    else some (f.at_ i .addState)
  | .addState => some (({ f with st := .ok }).at_ i .addPost)
  | .addPost => some (({ f with sem := f.sem + 1 }).at_ i .addUnlock)
  | .addUnlock => some ((f.unlock.log (.added i)).at_ i .idle)
  | .getWait => if f.sem = 0 then none else some (({ f with sem := f.sem - 1 }).at_ i .getLock)
  | .tryWait =>
    if f.sem = 0 then some ((f.log (.refused i)).at_ i .idle)
    else some (({ f with sem := f.sem - 1 }).at_ i .getLock)
  | .getLock => (f.lock i).map (·.at_ i .getTest)
  | .getTest => if f.st ≠ .empty then some (f.at_ i .getRead) else some (f.at_ i (.getUnlock none))
  | .getRead => some (f.at_ i (.getRemove f.queue.head?))
  | .getRemove el => some ((({ f with queue := f.queue.tail }).log (.took i el)).at_ i (.getSize el))
  | .getSize el =>
    some (({ f with st := if f.queue.length ≤ 0 then .empty else .ok }).at_ i (.getUnlock el))
  | .getUnlock el => some ((f.unlock.log (.ret i el)).at_ i .idle)
  | .sizeLock => (f.lock i).map (·.at_ i .sizeRead)
  | .sizeRead => some (f.at_ i (.sizeUnlock f.queue.length))
  | .sizeUnlock n => some ((f.unlock.log (.sized i n)).at_ i .idle)

/-- The beginning of a call. -/
def FCall.pc : FCall → Pc
  | .add el => .addLock el false
  | .insert el => .addLock el true
  | .get => .getWait
  | .tryget => .tryWait
  | .size => .sizeLock

/-- The scheduler lets thread `i` do something; `none` if that is impossible. -/
def Fifo.step (f : Fifo) (i : Nat) (a : Act) : Option Fifo :=
  match a with
  | .spawn => some { f with threads := f.threads ++ [.idle] }
  | .start c => if f.threads[i]? = some .idle then some (f.at_ i c.pc) else none
  | .interrupted =>
    if f.threads[i]? = some .getWait ∨ f.threads[i]? = some .tryWait then
      some ((f.log (.refused i)).at_ i .idle) else none
  | .go malloc => match f.threads[i]? with
    | none => none
    | some pc => f.go i malloc pc

/-- A schedule. -/
def Fifo.run (f : Fifo) : List (Nat × Act) → Option Fifo
  | [] => some f
  | (i, a) :: s => (f.step i a).bind (·.run s)

/-- The states reachable from `osip_fifo_init` (src/osip2/port_fifo.c:28-40) by a schedule all of
whose actions satisfy `O`. -/
def FifoReach (O : Act → Prop) (f : Fifo) : Prop :=
  ∃ s, ({} : Fifo).run s = some f ∧ ∀ x ∈ s, O x.2

end Osip
