import Verif.Base

/-!
# What the functions of the library do with mutexes (src/osip2/osip.c, osip_transaction.c, port_fifo.c)

Every function is written as a program that locks, unlocks and calls back; conditions and data are left out, a branch or a loop may go
any way. Mutexes are not recursive (src/osip2/port_sema.c:40-49). Any number of threads call the functions, and so do the callbacks of
the application. Left out: functions without a mutex, `osip_fifo_get`, which waits for an event on purpose, `osip_ict_lock` and its
siblings, which give the mutexes to the application, and the freeing of the mutexes themselves.
-/

set_option autoImplicit false

namespace Osip.Locks

/-- The mutexes: one for each list of transactions, `ixt_fastmutex`, `id_mutex`, and `qislocked` of the queue of each transaction. -/
inductive Lock
  | ict | ist | nict | nist
  | ixt
  | id
  | fifo (t : Nat)
  deriving DecidableEq

inductive Prog
  | skip
  | lock (m : Lock)
  | unlock (m : Lock)
  | seq (p q : Prog)
  /-- one of many ways, the condition is left out -/
  | branch (f : Nat → Prog)
  /-- any number of times -/
  | loop (p : Prog)
  /-- a callback of the application for a transaction -/
  | callback
  /-- `cb_send_message` for a retransmission without a transaction -/
  | send

instance : Append Prog := ⟨.seq⟩

/-- Two ways. -/
def Prog.either (p q : Prog) : Prog := .branch fun c => if c = 0 then p else q

/-- `osip_fifo_add`, `osip_fifo_insert` and `osip_fifo_size` (src/osip2/port_fifo.c:41-91). -/
def fifo_add (t : Nat) : Prog := .lock (.fifo t) ++ .unlock (.fifo t)

/-- `osip_fifo_tryget` (src/osip2/port_fifo.c:131-169): `osip_sem_trywait` does not wait. -/
def fifo_tryget (t : Nat) : Prog := .either .skip (.lock (.fifo t) ++ Prog.either (.unlock (.fifo t)) (.unlock (.fifo t)))

/-- Something with the queue of any transaction. -/
def some_fifo (f : Nat → Prog) : Prog := .branch f

/-- `osip_add_ixt` (src/osip2/osip.c:122-130), at the end of `osip_start_200ok_retransmissions` and
`osip_start_ack_retransmissions` (src/osip2/osip.c:164-195). -/
def start_retransmissions : Prog := Prog.either .skip (.lock .ixt ++ .unlock .ixt)

/-- `osip_stop_200ok_retransmissions` and `osip_stop_retransmissions_from_dialog` (src/osip2/osip.c:198-242). -/
def stop_retransmissions : Prog := Prog.either .skip (.lock .ixt ++ Prog.loop .skip ++ .unlock .ixt)

/-- `osip_retransmissions_execute` with `ixt_retransmit` (src/osip2/osip.c:244-281): the callback is called with the mutex held. -/
def retransmissions_execute : Prog := .lock .ixt ++ .loop (.either .skip .send) ++ .unlock .ixt

/-- `__osip_add_ict` and its siblings (src/osip2/osip.c:380-496). -/
def add_transaction (m : Lock) : Prog := .lock m ++ .unlock m

/-- `__osip_remove_ict_transaction` and its siblings (src/osip2/osip.c:519-700). -/
def remove_transaction (m : Lock) : Prog := .lock m ++ .loop .skip ++ Prog.either (.unlock m) (.unlock m)

/-- `osip_remove_transaction` (src/osip2/osip.c:498-516). -/
def osip_remove_transaction : Prog := .branch fun c =>
  match c with
  | 0 => remove_transaction .ict
  | 1 => remove_transaction .ist
  | 2 => remove_transaction .nict
  | 3 => remove_transaction .nist
  | _ => .skip

/-- `osip_transaction_free2` (src/osip2/osip_transaction.c:273-319). -/
def osip_transaction_free2 : Prog := some_fifo fun t => fifo_tryget t ++ .loop (fifo_tryget t)

/-- `osip_transaction_free` (src/osip2/osip_transaction.c:255-269). -/
def osip_transaction_free : Prog := osip_remove_transaction ++ osip_transaction_free2

/-- `osip_transaction_init` (src/osip2/osip_transaction.c:109-239), called by `osip_create_transaction`: the context cannot be made, or
the transaction is added to its list. -/
def osip_transaction_init : Prog :=
  Prog.either .skip (.lock .id ++ .unlock .id ++ .branch fun c =>
    match c with
    | 0 => add_transaction .ict
    | 1 => add_transaction .ist
    | 2 => add_transaction .nict
    | 3 => add_transaction .nist
    | _ => osip_transaction_free)

/-- `__osip_find_transaction` (src/osip2/osip.c:718-814) with `consume == 1`: the event is added with the mutex held. -/
def find_transaction (m : Lock) : Prog :=
  .lock m ++ .loop .skip ++ Prog.either (some_fifo fifo_add ++ .unlock m) (.unlock m)

/-- `osip_find_transaction_and_add_event` (src/osip2/osip.c:701-709). -/
def osip_find_transaction_and_add_event : Prog := .branch fun c =>
  match c with
  | 0 => find_transaction .ict
  | 1 => find_transaction .ist
  | 2 => find_transaction .nict
  | 3 => find_transaction .nist
  | _ => .skip

/-- `osip_transaction_add_event` (src/osip2/osip_transaction.c:321-331). -/
def osip_transaction_add_event : Prog := some_fifo fifo_add

/-- `osip_transaction_execute` (src/osip2/osip_transaction.c:333-377): the methods of the state machines call back, and take no mutex. -/
def osip_transaction_execute : Prog := .loop .callback

/-- `osip_ict_execute` and its siblings (src/osip2/osip.c:1041-1264). -/
def execute (m : Lock) : Prog :=
  .lock m ++ Prog.either (.unlock m) (Prog.loop .skip ++ .unlock m ++
    .loop (some_fifo fun t => .loop (fifo_tryget t ++ osip_transaction_execute) ++ fifo_tryget t))

/-- One part of `osip_timers_gettimeout` (src/osip2/osip.c:1277-1411), followed by the rest. Only the first part asks for the sizes of
queues; here every part may. -/
def gettimeout_part (m : Lock) (rest : Prog) : Prog :=
  .lock m ++ .loop (.either .skip (some_fifo fifo_add)) ++ Prog.either (.unlock m) (.unlock m ++ rest)

/-- `osip_timers_gettimeout` (src/osip2/osip.c:1266-1431). -/
def osip_timers_gettimeout : Prog :=
  gettimeout_part .ict (gettimeout_part .ist (gettimeout_part .nict (gettimeout_part .nist (gettimeout_part .ixt .skip))))

/-- `osip_timers_ict_execute` and its siblings (src/osip2/osip.c:1433-1562). -/
def timers_execute (m : Lock) : Prog := .lock m ++ .loop (some_fifo fun t => Prog.either .skip (fifo_add t) ++ Prog.either .skip (fifo_add t)) ++ .unlock m

/-- The functions that an application calls. -/
def api : Nat → Prog
  | 0 => start_retransmissions
  | 1 => stop_retransmissions
  | 2 => retransmissions_execute
  | 3 => osip_remove_transaction
  | 4 => osip_transaction_free2
  | 5 => osip_transaction_free
  | 6 => osip_transaction_init
  | 7 => osip_find_transaction_and_add_event
  | 8 => osip_transaction_add_event
  | 9 => osip_transaction_execute
  | 10 => execute .ict
  | 11 => execute .ist
  | 12 => execute .nict
  | 13 => execute .nist
  | 14 => osip_timers_gettimeout
  | 15 => timers_execute .ict
  | 16 => timers_execute .ist
  | 17 => timers_execute .nict
  | 18 => timers_execute .nist
  | 19 => some_fifo fifo_add
  | 20 => some_fifo fifo_tryget
  | _ => .skip

/-- The state: who has a mutex, and what each thread has still to do. -/
structure Sys where
  owner : Lock → Option Nat := fun _ => none
  todo : Nat → List Prog := fun _ => []

/-- A thread goes on with this. -/
def Sys.goto (s : Sys) (i : Nat) (k : List Prog) : Sys := { s with todo := fun j => if j = i then k else s.todo j }

/-- The mutex has this owner now. -/
def Sys.own (s : Sys) (m : Lock) (o : Option Nat) : Sys := { s with owner := fun x => if x = m then o else s.owner x }

/-- The next step of thread `i`, `none` if it waits or if it unlocks a mutex that it does not have. A thread with nothing to do calls a
function, and so does a callback, any number of times; `send` calls the functions for which `may` holds. -/
def Sys.step (may : Nat → Bool) (s : Sys) (i : Nat) (choice : Nat) : Option Sys :=
  match s.todo i with
  | [] => some (s.goto i [api choice])
  | .skip :: k => some (s.goto i k)
  | .lock m :: k => if s.owner m = none then some ((s.goto i k).own m (some i)) else none
  | .unlock m :: k => if s.owner m = some i then some ((s.goto i k).own m none) else none
  | .seq p q :: k => some (s.goto i (p :: q :: k))
  | .branch f :: k => some (s.goto i (f choice :: k))
  | .loop p :: k => some (s.goto i (if choice = 0 then k else p :: .loop p :: k))
  | .callback :: k => some (s.goto i (if choice = 0 then k else api (choice - 1) :: .callback :: k))
  | .send :: k => some (s.goto i (if choice = 0 ∨ may (choice - 1) = false then k else api (choice - 1) :: .send :: k))

/-- The states that can occur. -/
inductive Reach (may : Nat → Bool) : Sys → Prop
  | init : Reach may {}
  | step {s s' : Sys} (i choice : Nat) : Reach may s → s.step may i choice = some s' → Reach may s'

end Osip.Locks
