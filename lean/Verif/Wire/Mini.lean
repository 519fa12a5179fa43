import Verif.Wire.Model
import Verif.Parse.Mini

/-!
# From bytes to transactions in a library compiled with `MINISIZE`

The transaction layer (src/osip2) does not depend on the switch, except that `osip_atoi` is `atoi`
(include/osipparser2/osip_port.h:166-175), see Parse/Mini.lean; it hands no `NULL` to it here.
-/

set_option autoImplicit false

namespace Osip

/-- `osip_parse` (src/osip2/osip_event.c:28-66) with `MINISIZE`, as `osip_parse`. -/
def mini_osip_parse (r : Reader) (buf : List Char) : Option (Option (EvType × SipMessage)) := do
  let (i, m) ← mini_message_parse r.sscanf r.sscanfD r.signed r.table buf
  if i ≠ 0 then return none
  if m.start.status_code = 0 then
    if m.start.sip_method = none ∨ m.start.req_uri = none then return none
  return some (evt_type_incoming m.view, m)

/-- Bytes arrive, as `Stack.datagram`. -/
def Stack.miniDatagram (r : Reader) (s : Stack) (bytes : List Char) (src : Option (Str × Int)) (now1 now2 : TimeVal) :
    Option Stack := do
  match ← mini_osip_parse r bytes with
  | none => return s
  | some (_, m) => s.step (.receive (arrived m.view src) now1 now2)

/-- One operation, as `Stack.net`. -/
def Stack.miniNet (r : Reader) (s : Stack) : NetOp → Option Stack
  | .datagram bytes src now1 now2 => s.miniDatagram r bytes src now1 now2
  | .deliver evt => s.step (.deliver evt)
  | .create evt now1 now2 => s.step (.create evt now1 now2)
  | .remove k id => s.step (.remove k id)
  | .act id op => s.step (.act id op)

/-- A sequence of operations. -/
def Stack.miniNetRun (r : Reader) (s : Stack) : List NetOp → Option Stack
  | [] => some s
  | o :: os => do
    let s' ← s.miniNet r o
    s'.miniNetRun r os

end Osip
