import Verif.Base

/-!
# Condition variables on Windows (src/osip2/port_condv.c:98-257)

Any number of threads use one external mutex and one condition variable. Each statement of `osip_cond_wait` and
`osip_cond_timedwait` that locks, unlocks or waits is a step of its own; threads are interleaved in every way. The external mutex is used as
the header asks for: a thread waits only while it holds the mutex, and does not lock it twice.
-/

set_option autoImplicit false

namespace Osip.Cond

/-- Where a thread is. -/
inductive Pos
  /-- outside of the functions, without the external mutex -/
  | idle
  /-- outside of the functions, with the external mutex -/
  | held
  /-- `osip_cond_wait` before `osip_mutex_lock (_cond->mut)` (line 155) -/
  | w1
  /-- before `osip_mutex_unlock (_mut)` (line 159) -/
  | w2
  /-- before `osip_sem_wait (_cond->sem)` (line 163) -/
  | w3
  /-- before `osip_mutex_lock (_mut)` (line 165) -/
  | w4
  /-- before `osip_mutex_unlock (_cond->mut)` (line 167) -/
  | w5
  /-- `osip_cond_timedwait` before `osip_mutex_unlock (_mut)` (line 235) -/
  | t1
  /-- before `WaitForSingleObjectEx` (line 239) -/
  | t2
  /-- before `osip_mutex_lock (_mut)` (line 241) -/
  | t3
  deriving DecidableEq, Repr

/-- What a thread can do. -/
inductive Act
  /-- `osip_mutex_lock` on the external mutex -/
  | lock
  /-- `osip_mutex_unlock` on it -/
  | unlock
  /-- `osip_cond_signal` -/
  | signal
  /-- call `osip_cond_wait` -/
  | wait
  /-- call `osip_cond_timedwait` with a time in the future -/
  | timedwait
  /-- the next statement of the function the thread is in -/
  | go
  /-- `WaitForSingleObjectEx` ends with `WAIT_TIMEOUT` -/
  | timeout
  deriving DecidableEq, Repr

/-- The threads, who holds the external mutex and `_cond->mut`, and the count of `_cond->sem`. -/
structure State (T : Type) where
  pos : T → Pos
  ext : Option T
  own : Option T
  sem : Nat

/-- `osip_cond_init` (src/osip2/port_condv.c:106-118): the semaphore starts with 0. -/
def State.init {T : Type} : State T := ⟨fun _ => .idle, none, none, 0⟩

/-- The largest count of a semaphore (src/osip2/port_sema.c:611). -/
def LONG_MAX : Nat := 2147483647

variable {T : Type} [DecidableEq T]

/-- The thread goes to another place. -/
def State.move (s : State T) (t : T) (p : Pos) : State T := { s with pos := fun u => if u = t then p else s.pos u }

/-- One step of a thread; `none` if the thread cannot do this now. The calls into the system succeed. -/
def step (s : State T) (t : T) (a : Act) : Option (State T) :=
  match s.pos t, a with
  | .idle, .lock => if s.ext = none then some { s.move t .held with ext := some t } else none
  | .held, .unlock => some { s.move t .idle with ext := none }
  -- `osip_sem_post` (src/osip2/port_sema.c:633-643): the result of `ReleaseSemaphore` is not looked at
  | .idle, .signal => some { s with sem := if s.sem < LONG_MAX then s.sem + 1 else s.sem }
  | .held, .signal => some { s with sem := if s.sem < LONG_MAX then s.sem + 1 else s.sem }
  | .held, .wait => some (s.move t .w1)
  | .held, .timedwait => some (s.move t .t1)
  | .w1, .go => if s.own = none then some { s.move t .w2 with own := some t } else none
  | .w2, .go => some { s.move t .w3 with ext := none }
  | .w3, .go => if 0 < s.sem then some { s.move t .w4 with sem := s.sem - 1 } else none
  | .w4, .go => if s.ext = none then some { s.move t .w5 with ext := some t } else none
  | .w5, .go => some { s.move t .held with own := none }
  | .t1, .go => some { s.move t .t2 with ext := none }
  | .t2, .go => if 0 < s.sem then some { s.move t .t3 with sem := s.sem - 1 } else none
  | .t2, .timeout => some (s.move t .t3)
  | .t3, .go => if s.ext = none then some { s.move t .held with ext := some t } else none
  | _, _ => none

/-- A run: which thread does what. -/
def run (s : State T) : List (T × Act) → Option (State T)
  | [] => some s
  | (t, a) :: l => (step s t a).bind fun s => run s l

/-- `_delta_time` (src/osip2/port_condv.c:196-206) of two times in seconds and nanoseconds; `long` and `int` have 32 bits, an overflow is
undefined. -/
def delta_time (startSec startNsec endSec endNsec : Int) : Option Int :=
  let fits (x : Int) : Bool := decide (-2147483648 ≤ x) && decide (x ≤ 2147483647)
  let sec := endSec - startSec
  let ms := sec * 1000
  let nsec := endNsec - startNsec
  let difx := ms + nsec.tdiv 1000000
  if fits sec && fits ms && fits nsec && fits difx then some difx else none

end Osip.Cond
