import Verif.Base

/-!
# Executing the queued events: `osip_ict_execute` and its three copies (src/osip2/osip.c:1041-1264)

Transactions are numbers standing for `osip_transaction_t *`; so are events. `osip_transaction_execute` with everything that the
callbacks of the application do is one function on the state. Allocation of the array succeeds. The four functions differ in the
list and mutex they use.
-/

set_option autoImplicit false

namespace Osip.Exec

/-- The part of the stack that matters. `given` is a history which no code reads: all events ever put into the queue, in order. -/
structure Host where
  /-- `osip->osip_ict_transactions` -/
  list : List Nat
  /-- the contents of `transactionff` -/
  queue : Nat → List Nat
  given : Nat → List Nat
  /-- the transaction was freed -/
  freed : Nat → Bool

/-- `osip_transaction_execute (transaction, se)` (src/osip2/osip_transaction.c:333-377). -/
abbrev Handler := Nat → Nat → Host → Host

/-- Where `osip_ict_execute` stands: the rest of `array`, starting with the transaction whose events are being handled, and the
events executed so far. -/
structure State where
  todo : List Nat
  host : Host
  log : List (Nat × Nat)

/-- The copy of the list (src/osip2/osip.c:1052-1077). -/
def start (s : Host) : State := ⟨s.list, s, []⟩

/-- One round of the inner loop (src/osip2/osip.c:1082-1089): `osip_fifo_tryget` reads the transaction. At the end of the array
nothing happens any more. -/
def step (h : Handler) (x : State) : Option State :=
  match x.todo with
  | [] => some x
  | t :: rest =>
    if x.host.freed t then none
    else match x.host.queue t with
      | [] => some { x with todo := rest }
      | e :: q =>
        let s := { x.host with queue := fun u => if u = t then q else x.host.queue u }
        some { x with host := h t e s, log := x.log ++ [(t, e)] }

/-- A number of rounds. -/
def steps (h : Handler) : Nat → State → Option State
  | 0, x => some x
  | n + 1, x => (step h x).bind (steps h n)

end Osip.Exec
