import Verif.Fsm.Spec

/-!
# A client transaction, a network, and a server transaction

Two programs that both use the library: one starts a client transaction, the other one creates a server transaction when the request arrives.
Each side is the `World` of `Verif/Fsm/Model.lean`. The network between them loses, repeats, delays and reorders messages as it likes; it does
not change them and it invents none.

Simplifications: a message that arrives is given to the one transaction of the other side (which transaction a message is given to is modelled
in `Verif/Match`; C18-C21). A request that arrives after the server transaction was given back would start another one; here it is still given
to the first. A message handed to the transport callback may arrive even when the callback reported an error.
-/

set_option autoImplicit false

namespace Osip

/-- The two sides; the server side has no transaction before the first request arrives. -/
structure Pair where
  client : World
  server : Option World := none
deriving Repr

/-- What can happen. -/
inductive PairAct
  /-- the program of the client, its timers or its executor do something -/
  | client (o : Op)
  /-- the same on the side of the server -/
  | server (o : Op)
  /-- the network delivers the message the client sent as number `n` -/
  | toServer (n : Nat) (now1 now2 : TimeVal)
  /-- the network delivers the message the server sent as number `n` -/
  | toClient (n : Nat)
deriving Repr

/-- Everything but the arrival of a message. -/
def Op.isLocal : Op → Bool
  | .incoming _ => false
  | _ => true

/-- What `osip_create_transaction` decides about a request that matches no transaction (src/osip2/osip.c:817-869): an ACK starts none, an INVITE
an INVITE server transaction, any other request a non-INVITE one. -/
def newServer (now1 now2 : TimeVal) (m : Msg) : Option (Option World) :=
  if m.isRequest = false ∨ m.sip_method = some "ACK".toList then some none
  else
    match transactionInit (if m.sip_method = some "INVITE".toList then .IST else .NIST) now1 now2 m with
    | none => none
    | some (.error _) => some none
    | some (.ok t) => some (some (World.init t))

/-- One action; `none` is a NULL dereference (C61: it never happens). -/
def Pair.step (p : Pair) : PairAct → Option Pair
  | .client o =>
    if o.isLocal then (p.client.step o).map fun w => { p with client := w } else some p
  | .server o =>
    match p.server with
    | none => some p
    | some w => if o.isLocal then (w.step o).map fun w' => { p with server := some w' } else some p
  | .toServer n now1 now2 =>
    match (sends p.client.trace)[n]? with
    | none => some p
    | some r =>
      match p.server with
      | some w => (w.step (.incoming r.m)).map fun w' => { p with server := some w' }
      | none =>
        match newServer now1 now2 r.m with
        | none => none
        | some none => some p
        | some (some w) => (w.step (.incoming r.m)).map fun w' => { p with server := some w' }
  | .toClient n =>
    match p.server.bind (fun w => (sends w.trace)[n]?) with
    | none => some p
    | some r => (p.client.step (.incoming r.m)).map fun w => { p with client := w }

/-- Several actions. -/
def Pair.run (p : Pair) : List PairAct → Option Pair
  | [] => some p
  | a :: as => (p.step a).bind (·.run as)

/-- States that can be reached when a client transaction of kind `k` was created for some request. -/
def PReach (k : Kind) (p : Pair) : Prop :=
  ∃ now1 now2 req t acts, transactionInit k now1 now2 req = some (.ok t) ∧ (Pair.mk (World.init t) none).run acts = some p

end Osip
