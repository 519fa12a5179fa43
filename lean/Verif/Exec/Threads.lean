import Verif.Base

/-!
# Threads around one list of transactions (src/osip2/osip.c)

Any number of threads use `osip->osip_ict_transactions` (or one of the other three lists) and its mutex, which is not recursive
(src/osip2/port_sema.c:39-48). They are interleaved statement by statement, in any order. Transactions are numbers, a new one is never
equal to an old one. What a statement reads of transactions is given by `reads`; what is done to the queues, which have a lock of
their own, is left out (see `Verif.Fifo`). The application takes a transaction out of the list in its kill callback
(`osip_remove_transaction`) and frees it later (`osip_transaction_free2`). `osip_find_transaction` is compiled for programs without
threads only and is left out.
-/

set_option autoImplicit false

namespace Osip.Threads

/-- Where a thread stands; the statement named is the next one. -/
inductive Pc
  | idle
  /-- `osip_mutex_lock` in `__osip_find_transaction` (src/osip2/osip.c:798) -/
  | findLock
  /-- `osip_transaction_find` (src/osip2/osip.c:800) -/
  | findSearch
  /-- `osip_transaction_add_event` with the mutex held (src/osip2/osip.c:803) -/
  | findAdd (t : Nat)
  /-- `osip_mutex_unlock` (src/osip2/osip.c:805, 811) -/
  | findUnlock
  /-- `osip_mutex_lock` in `osip_timers_ict_execute` (src/osip2/osip.c:1439), the loop and `osip_mutex_unlock` -/
  | timerLock
  | timerLoop
  | timerUnlock
  /-- `osip_mutex_lock` in `__osip_add_ict` (src/osip2/osip.c:384), `osip_list_add`, `osip_mutex_unlock` -/
  | newLock (t : Nat)
  | newAdd (t : Nat)
  | newUnlock (t : Nat)
  /-- `evt->transactionid = transaction->transactionid` in `osip_create_transaction` (src/osip2/osip.c:867) -/
  | newRead (t : Nat)
  /-- `osip_transaction_add_event` by the caller of `osip_create_transaction` -/
  | firstAdd (t : Nat)
  /-- `osip_mutex_lock` in `osip_ict_execute` (src/osip2/osip.c:1054), the copy of the list, `osip_mutex_unlock` -/
  | execLock
  | execCopy
  | execUnlock (array : List Nat)
  /-- `osip_fifo_tryget` for the first of the rest of the array (src/osip2/osip.c:1083) -/
  | execGet (array : List Nat)
  /-- `osip_transaction_execute` for it (src/osip2/osip.c:1087) -/
  | execRun (array : List Nat)
  /-- the kill callback: `osip_mutex_lock` in `__osip_remove_ict_transaction` (src/osip2/osip.c:525), the loop, `osip_mutex_unlock` -/
  | killLock (array : List Nat)
  | killRemove (array : List Nat)
  | killUnlock (array : List Nat)
  deriving DecidableEq

/-- The transactions that a thread keeps in variables outside of the mutex: the rest of the array that it goes through, or the one it
has made. -/
def Pc.array : Pc → List Nat
  | .newUnlock t | .newRead t | .firstAdd t => [t]
  | .execUnlock a | .execGet a | .execRun a | .killLock a | .killRemove a | .killUnlock a => a
  | _ => []

/-- The thread has the mutex. -/
def Pc.holds : Pc → Bool
  | .findSearch | .findAdd _ | .findUnlock | .timerLoop | .timerUnlock | .newAdd _ | .newUnlock _ | .execCopy | .execUnlock _
  | .killRemove _ | .killUnlock _ => true
  | _ => false

/-- The state. `removed` are the transactions which the application took out of the list and has not freed. -/
structure Sys where
  list : List Nat := []
  removed : List Nat := []
  freed : List Nat := []
  next : Nat := 0
  mutex : Option Nat := none
  pc : Nat → Pc := fun _ => .idle

/-- What a thread does next: call a function, free a transaction, or go on; `choice` stands for what the model leaves open. -/
inductive Act
  | find
  | timers
  | new
  | exec
  | free (t : Nat)
  | go (choice : Nat)
  deriving DecidableEq

/-- A thread goes on with this statement. -/
def Sys.goto (s : Sys) (i : Nat) (p : Pc) : Sys := { s with pc := fun j => if j = i then p else s.pc j }

/-- `osip_mutex_lock`: the thread waits as long as the mutex is taken. -/
def Sys.lock (s : Sys) (i : Nat) (p : Pc) : Option Sys :=
  if s.mutex = none then some { s.goto i p with mutex := some i } else none

/-- `osip_mutex_unlock`. -/
def Sys.unlock (s : Sys) (i : Nat) (p : Pc) : Sys := { s.goto i p with mutex := none }

/-- The transactions that the next statement of a thread reads. -/
def Sys.reads (s : Sys) (i : Nat) : Act → List Nat
  | .free t => [t]
  | .go _ => match s.pc i with
    | .findSearch | .timerLoop => s.list
    | .findAdd t | .newRead t | .firstAdd t => [t]
    | .execGet (t :: _) | .execRun (t :: _) => [t]
    | .killRemove (t :: _) => t :: s.list
    | _ => []
  | _ => []

/-- The next statement of thread `i`; `none` if it cannot go on. Only some threads execute events and free transactions, and only some
create them. -/
def Sys.step (mayExec mayCreate : Nat → Bool) (s : Sys) (i : Nat) (a : Act) : Option Sys :=
  match a with
  | .find => if s.pc i = .idle then some (s.goto i .findLock) else none
  | .timers => if s.pc i = .idle then some (s.goto i .timerLock) else none
  | .new => if s.pc i = .idle ∧ mayCreate i then some { s.goto i (.newLock s.next) with next := s.next + 1 } else none
  | .exec => if s.pc i = .idle ∧ mayExec i then some (s.goto i .execLock) else none
  | .free t =>
    if s.pc i = .idle ∧ mayExec i ∧ t ∈ s.removed then some { s with removed := s.removed.erase t, freed := t :: s.freed } else none
  | .go choice => match s.pc i with
    | .idle => none
    | .findLock => s.lock i .findSearch
    | .findSearch => match s.list[choice]? with
      | none => some (s.goto i .findUnlock)
      | some t => some (s.goto i (.findAdd t))
    | .findAdd _ => some (s.goto i .findUnlock)
    | .findUnlock => some (s.unlock i .idle)
    | .timerLock => s.lock i .timerLoop
    | .timerLoop => some (s.goto i .timerUnlock)
    | .timerUnlock => some (s.unlock i .idle)
    | .newLock t => s.lock i (.newAdd t)
    | .newAdd t => some { s.goto i (.newUnlock t) with list := s.list ++ [t] }
    | .newUnlock t => some (s.unlock i (.newRead t))
    | .newRead t => some (s.goto i (if choice = 0 then .idle else .firstAdd t))
    | .firstAdd _ => some (s.goto i .idle)
    | .execLock => s.lock i .execCopy
    | .execCopy => some (s.goto i (.execUnlock s.list))
    | .execUnlock a => some (s.unlock i (.execGet a))
    | .execGet [] => some (s.goto i .idle)
    | .execGet (t :: a) => some (s.goto i (if choice = 0 then .execGet a else .execRun (t :: a)))
    | .execRun a => some (s.goto i (if choice = 0 then .execGet a else .killLock a))
    | .killLock a => s.lock i (.killRemove a)
    | .killRemove a => match a.head? with
      | some t =>
        if t ∈ s.list then some { s.goto i (.killUnlock a) with list := s.list.erase t, removed := t :: s.removed }
        else some (s.goto i (.killUnlock a))
      | none => some (s.goto i (.killUnlock a))
    | .killUnlock a => some (s.unlock i (.execGet a))

/-- The states that can occur. -/
inductive Reach (mayExec mayCreate : Nat → Bool) : Sys → Prop
  | init : Reach mayExec mayCreate {}
  | step {s s' : Sys} (i : Nat) (a : Act) : Reach mayExec mayCreate s → s.step mayExec mayCreate i a = some s' → Reach mayExec mayCreate s'

end Osip.Threads
