import Verif.Match.Model
import Verif.Parse.ToStr
import Verif.Parse.FixVia

/-!
# From bytes to transactions: `osip_parse` and what a program does with its result
-/

set_option autoImplicit false

namespace Osip

/-- The structures in a list of headers: Via, From and its like, Call-ID, CSeq. -/
def HeaderVal.via? : HeaderVal → Option Via
  | .via v => some v
  | _ => none
def HeaderVal.addr? : HeaderVal → Option From
  | .addr f => some f
  | _ => none
def HeaderVal.callId? : HeaderVal → Option CallId
  | .callId c => some c
  | _ => none
def HeaderVal.cseq? : HeaderVal → Option CSeq
  | .cseq c => some c
  | _ => none

/-- The text of a header. -/
def authText (k : Setter) (x : HeaderVal) : Str := ((headerToStr (fun n => List.replicate n ' ') k x).bind (·.2)).getD []

/-- The `osip_message_t` of the parser (`SipMessage`) as the transaction and dialog layers see it (`Msg`): one structure
(include/osipparser2/osip_message.h:55-115) seen through the members which the two layers use. A pointer is the first element.
Authorization headers, opaque in `Msg`, are given by their text. -/
def SipMessage.view (m : SipMessage) : Msg where
  status_code := m.start.status_code
  sip_version := m.start.sip_version
  sip_method := m.start.sip_method
  reason_phrase := m.start.reason_phrase
  req_uri := m.start.req_uri
  vias := (m.hdr .via).filterMap HeaderVal.via?
  from_ := ((m.hdr .from).filterMap HeaderVal.addr?).head?
  to := ((m.hdr .to).filterMap HeaderVal.addr?).head?
  call_id := ((m.hdr .call_id).filterMap HeaderVal.callId?).head?
  cseq := ((m.hdr .cseq).filterMap HeaderVal.cseq?).head?
  routes := (m.hdr .route).filterMap HeaderVal.addr?
  record_routes := (m.hdr .record_route).filterMap HeaderVal.addr?
  contacts := (m.hdr .contact).filterMap HeaderVal.addr?
  authorizations := (m.hdr .authorization).map (authText .authorization)
  proxy_authorizations := (m.hdr .proxy_authorization).map (authText .proxy_authorization)

/-- The functions of the C library and the state which reading a message depends on: `sscanf (…, "%u", …)` and
`sscanf (…, "%d", …)`, whether `char` is signed, and the hash table made by `parser_init`. -/
structure Reader where
  sscanf : Str → Option Nat
  sscanfD : Str → Option Int
  signed : Bool
  table : List (Option Nat)

/-- `osip_parse` (src/osip2/osip_event.c:28-66): type and message of the new event, inner `none` if there is none. Memory
allocation succeeds. -/
def osip_parse (r : Reader) (buf : List Char) : Option (Option (EvType × SipMessage)) := do
  let (i, m) ← osip_message_parse r.sscanf r.sscanfD r.signed r.table buf
  if i ≠ 0 then return none
  if m.start.status_code = 0 then
    if m.start.sip_method = none ∨ m.start.req_uri = none then return none
  return some (evt_type_incoming m.view, m)

/-- What the caller of `osip_parse` does next: `osip_message_fix_last_via_header` (src/osipparser2/osip_message_parse.c:907-946)
with the address the bytes came from, or nothing. -/
def arrived (m : Msg) : Option (Str × Int) → Msg
  | none => m
  | some (ip, port) => ((fix_last_via_header (some m) ip port).2).getD m

/-- What a program can do with the library, as `SOp`, but what comes from the network comes as bytes. -/
inductive NetOp
  /-- bytes arrive, are parsed and, if there is an event, the pattern of `SOp.receive` follows -/
  | datagram (bytes : List Char) (src : Option (Str × Int)) (now1 now2 : TimeVal)
  /-- the program hands a message of its own to a transaction -/
  | deliver (evt : MsgEv)
  /-- the program creates a transaction for a message of its own -/
  | create (evt : MsgEv) (now1 now2 : TimeVal)
  | remove (k : Kind) (id : Int)
  | act (id : Int) (op : Op)

/-- Bytes arrive. -/
def Stack.datagram (r : Reader) (s : Stack) (bytes : List Char) (src : Option (Str × Int)) (now1 now2 : TimeVal) :
    Option Stack := do
  match ← osip_parse r bytes with
  | none => return s
  | some (_, m) => s.step (.receive (arrived m.view src) now1 now2)

/-- One operation. -/
def Stack.net (r : Reader) (s : Stack) : NetOp → Option Stack
  | .datagram bytes src now1 now2 => s.datagram r bytes src now1 now2
  | .deliver evt => s.step (.deliver evt)
  | .create evt now1 now2 => s.step (.create evt now1 now2)
  | .remove k id => s.step (.remove k id)
  | .act id op => s.step (.act id op)

/-- A sequence of operations. -/
def Stack.netRun (r : Reader) (s : Stack) : List NetOp → Option Stack
  | [] => some s
  | o :: os => do
    let s' ← s.net r o
    s'.netRun r os

end Osip
