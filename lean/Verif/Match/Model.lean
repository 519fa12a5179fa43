import Verif.Hdr
import Verif.Fsm.Model

/-!
# Finding, creating and removing transactions

Translation of the matching functions of `osip_transaction.c` and of the lookup, creation and
removal functions of `osip.c`. The stack has four lists of transactions and the id counter.

Simplifications: allocation succeeds; the hash tables of the optional `dict` library are not used
(`HAVE_DICT_DICT_H` undefined); an `int` id beyond `INT_MAX` is undefined behaviour (`none`).
-/

namespace Osip

/-- `osip_transaction_t` (include/osip2/osip.h:361-401): the identification fields, and in `w` the
state machine with its queue. The fields `topvia` … `cseq` are set when the transaction is created
and never NULL or changed afterwards. -/
structure Entry where
  transactionid : Int
  topvia : Via
  from_ : From
  to : From
  callid : CallId
  cseq : CSeq
  w : World
deriving Repr

/-- The kind of a transaction. -/
def Entry.kind (e : Entry) : Kind := e.w.tr.ctx_type

/-- `osip_t` (include/osip2/osip.h:481-521): the lists of transactions and the next id. -/
structure Stack where
  transactionid : Int := 1
  icts : List Entry := []
  ists : List Entry := []
  nicts : List Entry := []
  nists : List Entry := []
deriving Repr

/-- The list of the given kind. -/
def Stack.list (s : Stack) : Kind → List Entry
  | .ICT => s.icts
  | .IST => s.ists
  | .NICT => s.nicts
  | .NIST => s.nists

/-- Replaces the list of the given kind. -/
def Stack.setList (s : Stack) (k : Kind) (l : List Entry) : Stack :=
  match k with
  | .ICT => { s with icts := l }
  | .IST => { s with ists := l }
  | .NICT => { s with nicts := l }
  | .NIST => { s with nists := l }

/-- `strcmp (a, b) == 0`; `none` if one is NULL. -/
def strcmpEq (a b : Option Str) : Option Bool :=
  match a, b with
  | some a, some b => some (decide (a = b))
  | _, _ => none

/-- `__osip_transaction_matching_response_osip_to_xict_17_1_3`
(src/osip2/osip_transaction.c:565-649), without `FWDSUPPORT`. -/
def matching_response (tr : Entry) (response : Msg) : Option Int :=
  if tr.kind ≠ .ICT ∧ tr.kind ≠ .NICT then some OSIP_BADPARAMETER
  else match response.cseq.bind (·.method) with
    | none => some OSIP_BADPARAMETER
    | some method =>
      match response.vias with
      | [] => some OSIP_SYNTAXERROR
      | topvia_response :: _ =>
        match paramByName tr.topvia.via_params "branch" with
        | none => some OSIP_SYNTAXERROR
        | some b_request =>
          match paramByName topvia_response.via_params "branch" with
          | none => some OSIP_SYNTAXERROR
          | some b_response =>
            match b_request.gvalue, b_response.gvalue with
            | some v1, some v2 =>
              if v1 ≠ v2 then some OSIP_UNDEFINED_ERROR
              else do
                if ← strcmpEq (some method) tr.cseq.method then return OSIP_SUCCESS
                return OSIP_UNDEFINED_ERROR
            | _, _ => some OSIP_SYNTAXERROR

/-- `0 == strncmp (s, "z9hG4bK", 7)`. -/
def hasMagicCookie (s : Str) : Bool := "z9hG4bK".toList.isPrefixOf s

/-- The part of `__osip_transaction_matching_request_osip_to_xist_17_2_3` for two branches with the
magic cookie (src/osip2/osip_transaction.c:707-742). -/
def matching_request_3261 (tr : Entry) (v1 v2 : Str) (topvia : Via) (method : Str) : Option Int :=
  if v1 ≠ v2 then some OSIP_UNDEFINED_ERROR
  else match topvia.host, tr.topvia.host with
    | some b_host, some b_orighost =>
      if b_orighost ≠ b_host then some OSIP_UNDEFINED_ERROR
      else
        let portsDiffer := match topvia.port, tr.topvia.port with
          | some p, none => decide (p ≠ "5060".toList)
          | none, some p => decide (p ≠ "5060".toList)
          | some p, some q => decide (q ≠ p)
          | none, none => false
        if portsDiffer then some OSIP_UNDEFINED_ERROR
        else match tr.cseq.method with
          | none => none
          | some m =>
            if ¬ (m = "INVITE".toList ∧ method = "ACK".toList) ∧ m ≠ method then
              some OSIP_UNDEFINED_ERROR
            else some OSIP_SUCCESS
    | _, _ => some OSIP_UNDEFINED_ERROR

/-- The RFC 2543 part of the same function (src/osip2/osip_transaction.c:744-776). `none`: the To
header of an ACK is NULL. -/
def matching_request_2543 (tr : Entry) (request : Msg) (topvia : Via) : Option Int := do
  if call_id_match (some tr.callid) request.call_id ≠ 0 then return OSIP_UNDEFINED_ERROR
  let rest : Option Int :=
    if from_tag_match (some tr.from_) request.from_ ≠ 0 then some OSIP_UNDEFINED_ERROR
    else if cseq_match (some tr.cseq) request.cseq ≠ 0 then some OSIP_UNDEFINED_ERROR
    else if via_match (some tr.topvia) (some topvia) ≠ 0 then some OSIP_UNDEFINED_ERROR
    else some OSIP_SUCCESS
  if ← request.isMethod "ACK" then
    let to ← request.to
    match paramByName tr.to.gen_params "tag", paramByName to.gen_params "tag" with
    | none, some _ => rest
    | some _, none => return OSIP_UNDEFINED_ERROR
    | _, _ =>
      if from_tag_match (some tr.to) request.to ≠ 0 then return OSIP_UNDEFINED_ERROR
      rest
  else
    match tr.w.tr.orig_request with
    | none => return OSIP_UNDEFINED_ERROR
    | some r =>
      if r.m.to.isNone then return OSIP_UNDEFINED_ERROR
      if from_tag_match r.m.to request.to ≠ 0 then return OSIP_UNDEFINED_ERROR
      rest

/-- `__osip_transaction_matching_request_osip_to_xist_17_2_3`
(src/osip2/osip_transaction.c:651-777), without `AC_BUG`. -/
def matching_request (tr : Entry) (request : Msg) : Option Int :=
  if tr.kind ≠ .IST ∧ tr.kind ≠ .NIST then some OSIP_BADPARAMETER
  else match request.cseq.bind (·.method) with
    | none => some OSIP_BADPARAMETER
    | some method =>
      match request.vias with
      | [] => some OSIP_SYNTAXERROR
      | topvia :: _ =>
        match paramByName topvia.via_params "branch", paramByName tr.topvia.via_params "branch" with
        | some _, none => some OSIP_SYNTAXERROR
        | none, some _ => some OSIP_SYNTAXERROR
        | some b, some bo =>
          match bo.gvalue, b.gvalue with
          | some v1, some v2 =>
            if v1.length ≠ v2.length then some OSIP_UNDEFINED_ERROR
            else if hasMagicCookie v1 && hasMagicCookie v2 then
              matching_request_3261 tr v1 v2 topvia method
            else matching_request_2543 tr request topvia
          | _, _ => some OSIP_UNDEFINED_ERROR
        | none, none => matching_request_2543 tr request topvia

/-- An event for a message: direction, message and the transaction id, which is only meaningful for
outgoing messages. Its type is `evt_type_incoming`/`evt_type_outgoing` of the message. -/
structure MsgEv where
  incoming : Bool
  m : Msg
  transactionid : Int := 0
deriving Repr

/-- The type of the event (src/osip2/osip_event.c:29-112). -/
def MsgEv.type (e : MsgEv) : EvType :=
  if e.incoming then evt_type_incoming e.m else evt_type_outgoing e.m

/-- `EVT_IS_INCOMINGREQ` (include/osip2/osip.h:1126-1128). -/
def EvType.isIncomingReq : EvType → Bool
  | .RCV_REQINVITE | .RCV_REQACK | .RCV_REQUEST => true
  | _ => false
/-- `EVT_IS_INCOMINGRESP` (include/osip2/osip.h:1133-1135). -/
def EvType.isIncomingResp : EvType → Bool
  | .RCV_STATUS_1XX | .RCV_STATUS_2XX | .RCV_STATUS_3456XX => true
  | _ => false
/-- `EVT_IS_OUTGOINGREQ` (include/osip2/osip.h:1146-1148). -/
def EvType.isOutgoingReq : EvType → Bool
  | .SND_REQINVITE | .SND_REQACK | .SND_REQUEST => true
  | _ => false

/-- The first element satisfying a test that may fail with undefined behaviour. -/
def findM {α : Type} (p : α → Option Bool) : List α → Option (Option α)
  | [] => some none
  | x :: xs => do
    if ← p x then return some x
    findM p xs

/-- `osip_transaction_find` (src/osip2/osip.c:871-964). -/
def osip_transaction_find (transactions : List Entry) (evt : MsgEv) : Option (Option Entry) :=
  if evt.type.isIncomingReq then
    findM (fun t => (matching_request t evt.m).map (· == 0)) transactions
  else if evt.type.isIncomingResp then
    findM (fun t => (matching_response t evt.m).map (· == 0)) transactions
  else
    findM (fun t => some (t.transactionid == evt.transactionid)) transactions

/-- The list searched by `__osip_find_transaction` (src/osip2/osip.c:753-793); `none` if the method
is NULL. -/
def searchKind (evt : MsgEv) : Option Kind := do
  let m ← evt.m.cseq.bind (·.method)
  let invite := decide (m = "INVITE".toList)
  let ack := decide (m = "ACK".toList)
  if evt.incoming then
    if evt.m.isRequest then
      return if invite || ack then .IST else .NIST
    else
      return if invite then .ICT else .NICT
  else
    if evt.m.isResponse then
      return if invite then .IST else .NIST
    else
      return if invite || ack then .ICT else .NICT

/-- `__osip_find_transaction` (src/osip2/osip.c:739-815) without the queueing. -/
def osip_find_transaction (s : Stack) (evt : MsgEv) : Option (Option Entry) :=
  if evt.m.cseq.isNone then some none
  else do
    let k ← searchKind evt
    osip_transaction_find (s.list k) evt

/-- The queue of a transaction gets the event of a message (`osip_transaction_add_event`,
src/osip2/osip_transaction.c:321-331). -/
def Entry.addEvent (e : Entry) (evt : MsgEv) : Entry :=
  { e with w := { e.w with
      queue := e.w.queue ++ [⟨evt.type, some ⟨e.w.next, evt.m⟩⟩],
      next := e.w.next + 1, trace := e.w.trace ++ [.newMsg e.w.next] } }

/-- Changes the entry with the given id in a list (in C: through the pointer). -/
def updateId (l : List Entry) (id : Int) (f : Entry → Entry) : List Entry :=
  l.map (fun e => if e.transactionid = id then f e else e)

/-- `osip_find_transaction_and_add_event` (src/osip2/osip.c:721-730): new stack and return value. -/
def osip_find_transaction_and_add_event (s : Stack) (evt : MsgEv) : Option (Stack × Int) := do
  match ← osip_find_transaction s evt with
  | none => return (s, OSIP_UNDEFINED_ERROR)
  | some e =>
    return (s.setList e.kind (updateId (s.list e.kind) e.transactionid (·.addEvent evt)),
      OSIP_SUCCESS)

/-- Removal of the first entry with the given id: `__osip_remove_ict_transaction` and the three
others (src/osip2/osip.c:517-719). -/
def removeId (id : Int) : List Entry → Option (List Entry)
  | [] => none
  | e :: es => if e.transactionid = id then some es else (removeId id es).map (e :: ·)

/-- `osip_remove_transaction` (src/osip2/osip.c:498-515), for a transaction of kind `k` with the
given id. -/
def osip_remove_transaction (s : Stack) (k : Kind) (id : Int) : Stack × Int :=
  match removeId id (s.list k) with
  | some l => (s.setList k l, OSIP_SUCCESS)
  | none => (s, OSIP_UNDEFINED_ERROR)

/-- `osip_transaction_init` (src/osip2/osip_transaction.c:110-239): new stack and the transaction,
if it could be created. On failure `osip_transaction_free` removes the transaction from its list,
where it is not. -/
def osip_transaction_init (s : Stack) (k : Kind) (request : Msg) (now1 now2 : TimeVal) :
    Option (Stack × Option Entry) :=
  if request.call_id.isNone then some (s, none)
  else if (request.call_id.bind (·.number)).isNone then some (s, none)
  else if s.transactionid ≥ 2^31 - 1 then none
  else
    let id := s.transactionid
    let s := { s with transactionid := id + 1 }
    let fail : Option (Stack × Option Entry) := some ((osip_remove_transaction s k id).1, none)
    match request.vias with
    | [] => fail
    | v :: _ =>
      match viaClone (some v), fromClone request.from_, fromClone request.to,
          callIdClone request.call_id, cseqClone request.cseq with
      | some topvia, some from_, some to, some callid, some cseq =>
        match transactionInit k now1 now2 request with
        | none => none
        | some (.error _) => fail
        | some (.ok t) =>
          let e : Entry := { transactionid := id, topvia, from_, to, callid, cseq, w := World.init t }
          some (s.setList k (s.list k ++ [e]), some e)
      | _, _, _, _, _ => fail

/-- The kind of transaction created for an event (src/osip2/osip.c:827-857): `some none` if none is
created, `none` on a NULL method. -/
def createKind (evt : MsgEv) : Option (Option Kind) :=
  let go : Option (Option Kind) := do
    if ← evt.m.isMethod "ACK" then return none
    if evt.type.isIncomingReq then
      let m ← evt.m.cseq.bind (·.method)
      return some (if m = "INVITE".toList then .IST else .NIST)
    else if evt.type.isOutgoingReq then
      let m ← evt.m.cseq.bind (·.method)
      return some (if m = "INVITE".toList then .ICT else .NICT)
    else return none
  if evt.m.isRequest then
    match evt.m.cseq.bind (·.method), evt.m.sip_method with
    | some a, some b => if a ≠ b then some none else go
    | _, _ => some none
  else go

/-- `osip_create_transaction` (src/osip2/osip.c:817-869). -/
def osip_create_transaction (s : Stack) (evt : MsgEv) (now1 now2 : TimeVal) :
    Option (Stack × Option Entry) := do
  match ← createKind evt with
  | none => return (s, none)
  | some k => osip_transaction_init s k evt.m now1 now2

/-! ## Histories of a stack -/

/-- What is done to a stack. -/
inductive SOp
  /-- the usual treatment of a message from the network: find the transaction and queue the event,
  otherwise create a transaction and, if one was created, queue the event on it
  (the pattern of the library's manual) -/
  | receive (m : Msg) (now1 now2 : TimeVal)
  /-- only `osip_find_transaction_and_add_event` -/
  | deliver (evt : MsgEv)
  /-- only `osip_create_transaction` -/
  | create (evt : MsgEv) (now1 now2 : TimeVal)
  /-- `osip_remove_transaction` with a transaction of kind `k` and this id -/
  | remove (k : Kind) (id : Int)
  /-- something happens to the transaction with this id: an event is executed, a timer fires, … -/
  | act (id : Int) (op : Op)
deriving Repr

/-- The pattern of `SOp.receive`. -/
def Stack.receive (s : Stack) (m : Msg) (now1 now2 : TimeVal) : Option Stack := do
  let evt : MsgEv := { incoming := true, m }
  if ¬ evtAllowed m then return s
  let (s', i) ← osip_find_transaction_and_add_event s evt
  if i = OSIP_SUCCESS then return s'
  match ← osip_create_transaction s evt now1 now2 with
  | (s', none) => return s'
  | (s', some e) =>
    return s'.setList e.kind (updateId (s'.list e.kind) e.transactionid (·.addEvent evt))

/-- An operation on the transaction with an id, in every list (ids are unique, `c17_unique`). -/
def actList (id : Int) (op : Op) : List Entry → Option (List Entry)
  | [] => some []
  | e :: es => do
    let es' ← actList id op es
    if e.transactionid = id then
      let w' ← e.w.step op
      return { e with w := w' } :: es'
    else return e :: es'

/-- One operation. -/
def Stack.step (s : Stack) : SOp → Option Stack
  | .receive m now1 now2 => s.receive m now1 now2
  | .deliver evt => if evtAllowed evt.m then
      (osip_find_transaction_and_add_event s evt).map (·.1) else some s
  | .create evt now1 now2 => if evtAllowed evt.m then
      (osip_create_transaction s evt now1 now2).map (·.1) else some s
  | .remove k id => some (osip_remove_transaction s k id).1
  | .act id op => do
    let a ← actList id op s.icts
    let b ← actList id op s.ists
    let c ← actList id op s.nicts
    let d ← actList id op s.nists
    return { s with icts := a, ists := b, nicts := c, nists := d }

/-- A sequence of operations. -/
def Stack.run (s : Stack) : List SOp → Option Stack
  | [] => some s
  | o :: os => do
    let s' ← s.step o
    s'.run os

/-- The stacks that can arise from a new one (`osip_init`, src/osip2/osip.c:966-1003). -/
def StackReach (s : Stack) : Prop := ∃ ops, ({} : Stack).run ops = some s

end Osip
