import Verif.Msg
import Verif.Time

/-!
# The four transaction state machines

Translation of `fsm_misc.c`, `ict_fsm.c`, `nict_fsm.c`, `ist_fsm.c`, `nist_fsm.c`, of the
`__osip_*_init` functions and of `osip_transaction_execute`/`osip_transaction_free2`.

* A message is a `Ref`: an identity (its address) with its content.
* What a handler does to the outside is a list of `Eff`ects in order.
* The result of `cb_send_message`, the clock and the address of a newly allocated message come
  from an environment `Env` (one send and at most two clock readings happen per handler).
* `none` as result means that the C code would dereference a NULL pointer.

Simplifications: application callbacks only observe (they do not modify the transaction);
all callbacks are installed; `malloc` succeeds; default build (no `USE_BLOCKINGSOCKET`);
message contents are not modified by the application while the library holds them.
-/

namespace Osip

/-- `osip_fsm_type_t` (include/osip2/osip.h:155-160). -/
inductive Kind | ICT | IST | NICT | NIST
deriving DecidableEq, Repr, Inhabited

/-- `state_t` (include/osip2/osip.h:58-92). -/
inductive State
  | ICT_PRE_CALLING | ICT_CALLING | ICT_PROCEEDING | ICT_COMPLETED | ICT_TERMINATED
  | IST_PRE_PROCEEDING | IST_PROCEEDING | IST_COMPLETED | IST_CONFIRMED | IST_TERMINATED
  | NICT_PRE_TRYING | NICT_TRYING | NICT_PROCEEDING | NICT_COMPLETED | NICT_TERMINATED
  | NIST_PRE_TRYING | NIST_TRYING | NIST_PROCEEDING | NIST_COMPLETED | NIST_TERMINATED
deriving DecidableEq, Repr, Inhabited

/-- `type_t` (include/osip2/osip.h:111-148), without `UNKNOWN_EVT`. -/
inductive EvType
  | TIMEOUT_A | TIMEOUT_B | TIMEOUT_D | TIMEOUT_E | TIMEOUT_F | TIMEOUT_K
  | TIMEOUT_G | TIMEOUT_H | TIMEOUT_I | TIMEOUT_J
  | RCV_REQINVITE | RCV_REQACK | RCV_REQUEST | RCV_STATUS_1XX | RCV_STATUS_2XX | RCV_STATUS_3456XX
  | SND_REQINVITE | SND_REQACK | SND_REQUEST | SND_STATUS_1XX | SND_STATUS_2XX | SND_STATUS_3456XX
  | KILL_TRANSACTION
deriving DecidableEq, Repr, Inhabited

/-- `EVT_IS_MSG` (include/osip2/osip.h:1161). -/
def EvType.isMsg : EvType → Bool
  | .RCV_REQINVITE | .RCV_REQACK | .RCV_REQUEST | .RCV_STATUS_1XX | .RCV_STATUS_2XX
  | .RCV_STATUS_3456XX | .SND_REQINVITE | .SND_REQACK | .SND_REQUEST | .SND_STATUS_1XX
  | .SND_STATUS_2XX | .SND_STATUS_3456XX => true
  | _ => false

/-- `osip_message_callback_type_t` (include/osip2/osip.h:408-476). -/
inductive Cb
  | ICT_INVITE_SENT | ICT_INVITE_SENT_AGAIN | ICT_ACK_SENT | ICT_ACK_SENT_AGAIN
  | ICT_STATUS_1XX_RECEIVED | ICT_STATUS_2XX_RECEIVED | ICT_STATUS_2XX_RECEIVED_AGAIN
  | ICT_STATUS_3XX_RECEIVED | ICT_STATUS_4XX_RECEIVED | ICT_STATUS_5XX_RECEIVED
  | ICT_STATUS_6XX_RECEIVED | ICT_STATUS_3456XX_RECEIVED_AGAIN
  | IST_INVITE_RECEIVED | IST_INVITE_RECEIVED_AGAIN | IST_ACK_RECEIVED | IST_ACK_RECEIVED_AGAIN
  | IST_STATUS_1XX_SENT | IST_STATUS_2XX_SENT | IST_STATUS_2XX_SENT_AGAIN | IST_STATUS_3XX_SENT
  | IST_STATUS_4XX_SENT | IST_STATUS_5XX_SENT | IST_STATUS_6XX_SENT | IST_STATUS_3456XX_SENT_AGAIN
  | NICT_REGISTER_SENT | NICT_BYE_SENT | NICT_OPTIONS_SENT | NICT_INFO_SENT | NICT_CANCEL_SENT
  | NICT_NOTIFY_SENT | NICT_SUBSCRIBE_SENT | NICT_UNKNOWN_REQUEST_SENT | NICT_REQUEST_SENT_AGAIN
  | NICT_STATUS_1XX_RECEIVED | NICT_STATUS_2XX_RECEIVED | NICT_STATUS_2XX_RECEIVED_AGAIN
  | NICT_STATUS_3XX_RECEIVED | NICT_STATUS_4XX_RECEIVED | NICT_STATUS_5XX_RECEIVED
  | NICT_STATUS_6XX_RECEIVED | NICT_STATUS_3456XX_RECEIVED_AGAIN
  | NIST_REGISTER_RECEIVED | NIST_BYE_RECEIVED | NIST_OPTIONS_RECEIVED | NIST_INFO_RECEIVED
  | NIST_CANCEL_RECEIVED | NIST_NOTIFY_RECEIVED | NIST_SUBSCRIBE_RECEIVED
  | NIST_UNKNOWN_REQUEST_RECEIVED | NIST_REQUEST_RECEIVED_AGAIN
  | NIST_STATUS_1XX_SENT | NIST_STATUS_2XX_SENT | NIST_STATUS_2XX_SENT_AGAIN | NIST_STATUS_3XX_SENT
  | NIST_STATUS_4XX_SENT | NIST_STATUS_5XX_SENT | NIST_STATUS_6XX_SENT | NIST_STATUS_3456XX_SENT_AGAIN
  | ICT_STATUS_TIMEOUT | NICT_STATUS_TIMEOUT
deriving DecidableEq, Repr, Inhabited

/-- A message in memory: its address and its content. -/
structure Ref where
  id : Nat
  m : Msg
deriving DecidableEq, Repr, Inhabited

/-- Externally visible actions, in program order. -/
inductive Eff
  /-- `cb_send_message (tr, msg, host, port, socket)` -/
  | send (r : Ref) (host : Option Str) (port : Int)
  /-- `__osip_message_callback (type, tr, msg)` -/
  | cb (t : Cb) (r : Option Ref)
  /-- `__osip_transport_error_callback (type, tr, err)` -/
  | tpErr (k : Kind) (err : Int)
  /-- `__osip_kill_transaction_callback (type, tr)` -/
  | kill (k : Kind)
  /-- a message comes into existence -/
  | newMsg (id : Nat)
  /-- `osip_message_free (msg)` on a non-NULL message -/
  | freeMsg (id : Nat)
deriving DecidableEq, Repr

/-- What the outside world answers during one handler. -/
structure Env where
  /-- result of `cb_send_message` -/
  send : Int
  /-- first reading of `osip_gettimeofday` -/
  now1 : TimeVal
  /-- second reading of `osip_gettimeofday` -/
  now2 : TimeVal
  /-- address of a message allocated by the handler -/
  fresh : Nat
deriving Repr, Inhabited

/-- `osip_event_t` (include/osip2/osip.h:203-207), without the transaction id. -/
structure Ev where
  type : EvType
  sip : Option Ref
deriving DecidableEq, Repr, Inhabited

/-- `osip_ict_t` (include/osip2/osip.h:220-235). -/
structure IctCtx where
  timer_a_length : Int := 0
  timer_a_start : TimeVal := ⟨0, 0⟩
  timer_b_length : Int := 0
  timer_b_start : TimeVal := ⟨0, 0⟩
  timer_d_length : Int := 0
  timer_d_start : TimeVal := ⟨0, 0⟩
  destination : Option Str := none
  port : Int := 0
deriving DecidableEq, Repr, Inhabited

/-- `osip_nict_t` (include/osip2/osip.h:244-258). -/
structure NictCtx where
  timer_e_length : Int := 0
  timer_e_start : TimeVal := ⟨0, 0⟩
  timer_f_length : Int := 0
  timer_f_start : TimeVal := ⟨0, 0⟩
  timer_k_length : Int := 0
  timer_k_start : TimeVal := ⟨0, 0⟩
  destination : Option Str := none
  port : Int := 0
deriving DecidableEq, Repr, Inhabited

/-- `osip_ist_t` (include/osip2/osip.h:266-275). -/
structure IstCtx where
  timer_g_length : Int := 0
  timer_g_start : TimeVal := ⟨0, 0⟩
  timer_h_length : Int := 0
  timer_h_start : TimeVal := ⟨0, 0⟩
  timer_i_length : Int := 0
  timer_i_start : TimeVal := ⟨0, 0⟩
deriving DecidableEq, Repr, Inhabited

/-- `osip_nist_t` (include/osip2/osip.h:283-288). -/
structure NistCtx where
  timer_j_length : Int := 0
  timer_j_start : TimeVal := ⟨0, 0⟩
deriving DecidableEq, Repr, Inhabited

/-- `osip_transaction_t` (include/osip2/osip.h:361-401): the fields used by the state machines.
The C structure has four context pointers of which one is non-NULL, the one of `ctx_type`. -/
structure Tr where
  ctx_type : Kind
  state : State
  orig_request : Option Ref := none
  last_response : Option Ref := none
  ack : Option Ref := none
  ict : IctCtx := {}
  nict : NictCtx := {}
  ist : IstCtx := {}
  nist : NistCtx := {}
deriving DecidableEq, Repr, Inhabited

/-- Result of a handler: new transaction and effects; `none`: NULL dereference. -/
abbrev Out := Option (Tr × List Eff)

/-- `osip_message_free (p)`: nothing on NULL (src/osipparser2/osip_message.c:117-120). -/
def freeOpt (r : Option Ref) : List Eff :=
  match r with
  | none => []
  | some r => [.freeMsg r.id]

/-- Test used everywhere for "reliable transport", e.g. src/osip2/ict_fsm.c:131. -/
def isReliable (proto : Str) : Bool :=
  strcaseEq proto "TCP".toList || strcaseEq proto "TLS".toList || strcaseEq proto "SCTP".toList

/-- `osip_message_get_via (msg, 0, &via)` then `via_get_protocol (via)`:
`.inl err` if there is no Via, `.inr none` if it has no protocol
(src/osipparser2/osip_via.c:82-93). -/
def topViaProto (m : Option Ref) : Int ⊕ Option Str :=
  match m with
  | none => .inl OSIP_BADPARAMETER
  | some r => match r.m.vias with
    | [] => .inl OSIP_UNDEFINED_ERROR
    | v :: _ => .inr v.protocol

/-! ## INVITE client transaction -/

/-- `ict_handle_transport_error` (src/osip2/ict_fsm.c:88-95). -/
def ict_handle_transport_error (ict : Tr) (err : Int) : Tr × List Eff :=
  ({ ict with state := .ICT_TERMINATED }, [.tpErr .ICT err, .kill .ICT])

/-- The message handed to `cb_send_message`; a NULL message is not sent by any reachable path,
it is treated as undefined behaviour of the application's function. -/
def sendMsg (r : Option Ref) (host : Option Str) (port : Int) : Option Eff :=
  match r with
  | none => none
  | some r => some (.send r host port)

/-- `ict_snd_invite` (src/osip2/ict_fsm.c:97-142). -/
def ict_snd_invite (env : Env) (ict : Tr) (evt : Ev) : Out := do
  let ict := { ict with orig_request := evt.sip }
  let s ← sendMsg evt.sip ict.ict.destination ict.ict.port
  if env.send < 0 then
    let (t, e) := ict_handle_transport_error ict env.send
    return (t, s :: e)
  let done (t : Tr) : Out :=
    some ({ t with state := .ICT_CALLING }, [s, .cb .ICT_INVITE_SENT t.orig_request])
  if env.send = 0 then
    match topViaProto ict.orig_request with
    | .inl i =>
      let (t, e) := ict_handle_transport_error ict i
      return (t, s :: e)
    | .inr none =>
      let (t, e) := ict_handle_transport_error ict 0
      return (t, s :: e)
    | .inr (some proto) =>
      if isReliable proto then
        done { ict with ict := { ict.ict with timer_a_length := -1,
                                              timer_a_start := ict.ict.timer_a_start.off } }
      else done ict
  else done ict

/-- `osip_ict_timeout_a_event` (src/osip2/ict_fsm.c:144-191). -/
def osip_ict_timeout_a_event (env : Env) (ict : Tr) (_evt : Ev) : Out := do
  let len := ict.ict.timer_a_length * 2
  let ict := { ict with ict := { ict.ict with
    timer_a_length := len, timer_a_start := add_gettimeofday env.now1 len } }
  let s ← sendMsg ict.orig_request ict.ict.destination ict.ict.port
  if env.send < 0 then
    let (t, e) := ict_handle_transport_error ict env.send
    return (t, s :: e)
  if env.send = 0 then
    match topViaProto ict.orig_request with
    | .inl i =>
      let (t, e) := ict_handle_transport_error ict i
      return (t, s :: e)
    | .inr none =>
      let (t, e) := ict_handle_transport_error ict 0
      return (t, s :: e)
    | .inr (some proto) =>
      let ctx := if isReliable proto then
          { ict.ict with timer_a_length := -1, timer_a_start := ict.ict.timer_a_start.off }
        else ict.ict
      return ({ ict with ict := ctx }, [s, .cb .ICT_INVITE_SENT_AGAIN ict.orig_request])
  else return (ict, [s])

/-- `osip_ict_timeout_b_event` (src/osip2/ict_fsm.c:193-202). -/
def osip_ict_timeout_b_event (_env : Env) (ict : Tr) (evt : Ev) : Out :=
  some ({ ict with
      ict := { ict.ict with timer_b_length := -1, timer_b_start := ict.ict.timer_b_start.off },
      state := .ICT_TERMINATED },
    [.cb .ICT_STATUS_TIMEOUT evt.sip, .kill .ICT])

/-- `ict_rcv_1xx` (src/osip2/ict_fsm.c:204-215). -/
def ict_rcv_1xx (_env : Env) (ict : Tr) (evt : Ev) : Out :=
  some ({ ict with last_response := evt.sip, state := .ICT_PROCEEDING },
    freeOpt ict.last_response ++ [.cb .ICT_STATUS_1XX_RECEIVED evt.sip])

/-- `ict_rcv_2xx` (src/osip2/ict_fsm.c:217-231). -/
def ict_rcv_2xx (_env : Env) (ict : Tr) (evt : Ev) : Out :=
  some ({ ict with last_response := evt.sip, state := .ICT_TERMINATED },
    freeOpt ict.last_response ++ [.cb .ICT_STATUS_2XX_RECEIVED evt.sip, .kill .ICT])

/-- Clone of a list of routes; fails if one element fails
(src/osip2/ict_fsm.c:315-330). -/
def cloneRoutes : List From → Option (List From)
  | [] => some []
  | r :: rs => do
    let r' ← fromClone (some r)
    let rs' ← cloneRoutes rs
    return r' :: rs'

/-- `ict_create_ack` (src/osip2/ict_fsm.c:233-356). Result `none`: NULL is returned. The two
authorization lists are copied as they are (`osip_authorization_clone` assumed to succeed). -/
def ict_create_ack (orig_request response : Msg) : Option Msg := do
  let from_ ← fromClone response.from_
  let to ← fromClone response.to
  let call_id ← callIdClone response.call_id
  let cseq ← cseqClone response.cseq
  let cseq := { cseq with method := some "ACK".toList }
  let sip_version ← orig_request.sip_version
  let req_uri ← uriClone orig_request.req_uri
  let via ← viaClone orig_request.vias.head?
  let routes ← cloneRoutes orig_request.routes
  let auth := decide (response.status_code ≠ 401 ∧ response.status_code ≠ 407)
  return {
    from_ := some from_, to := some to, call_id := some call_id, cseq := some cseq,
    sip_method := some "ACK".toList, sip_version := some sip_version,
    status_code := 0, reason_phrase := none, req_uri := some req_uri,
    vias := [via], routes := routes,
    authorizations := if auth then orig_request.authorizations else [],
    proxy_authorizations := if auth then orig_request.proxy_authorizations else [] }

/-- Destination of a request (src/osip2/ict.c:95-139, the same text in src/osip2/nict.c:85-130 and
src/osip2/ict_fsm.c:386-428). `none`: `req_uri` is NULL and needed. -/
def requestDestination (m : Msg) : Option (Option Str × Int) :=
  let route : Option From := match m.routes.head? with
    | none => none
    | some r => match r.url with
      | none => some r
      | some u => if (paramByName u.url_params "lr").isNone then none else some r
  match route.bind (·.url) with
  | some u =>
    let port := match u.port with | none => 5060 | some p => osip_atoi (some p)
    some (u.host, port)
  | none =>
    match m.req_uri with
    | none => none
    | some u =>
      let port := match u.port with | none => 5060 | some p => osip_atoi (some p)
      let obr := (paramByName u.url_params "x-obr").bind (·.gvalue)
      let obp := (paramByName u.url_params "x-obp").bind (·.gvalue)
      let maddr := (paramByName u.url_params "maddr").bind (·.gvalue)
      match maddr, obr, obp with
      | some h, _, _ => some (some h, port)
      | none, some h, some p => some (some h, osip_atoi (some p))
      | none, _, _ => some (u.host, port)

/-- Callback announcing a 3xx-6xx response (src/osip2/ict_fsm.c:435-442). -/
def ict3456Cb (m : Msg) : Cb :=
  if m.isStatus 3 then .ICT_STATUS_3XX_RECEIVED
  else if m.isStatus 4 then .ICT_STATUS_4XX_RECEIVED
  else if m.isStatus 5 then .ICT_STATUS_5XX_RECEIVED
  else .ICT_STATUS_6XX_RECEIVED

/-- The destination is computed again from the ACK if it is not set
(src/osip2/ict_fsm.c:384-429). -/
def ictAckDestination (ctx : IctCtx) (ack : Msg) : Option (Option Str × Int) :=
  match ctx.destination with
  | some d => some (some d, ctx.port)
  | none => requestDestination ack

/-- `ict_rcv_3456xx` (src/osip2/ict_fsm.c:358-451). -/
def ict_rcv_3456xx (env : Env) (ict : Tr) (evt : Ev) : Out := do
  let pre := freeOpt ict.last_response
  let timer_d_start := add_gettimeofday env.now1 ict.ict.timer_d_length
  if ict.state ≠ .ICT_COMPLETED then
    let resp ← evt.sip
    let orig ← ict.orig_request
    match ict_create_ack orig.m resp.m with
    | none =>
      return ({ ict with last_response := evt.sip, ack := none, state := .ICT_TERMINATED },
        pre ++ [.newMsg env.fresh, .freeMsg env.fresh, .kill .ICT])
    | some a =>
      let (h, p) ← ictAckDestination ict.ict a
      let ack : Ref := ⟨env.fresh, a⟩
      if env.send ≠ 0 then
        let (t, e) := ict_handle_transport_error { ict with
          last_response := evt.sip, ack := some ack,
          ict := { ict.ict with destination := h, port := p } } env.send
        return (t, pre ++ [.newMsg ack.id, .send ack h p] ++ e)
      else
        return ({ ict with
          last_response := evt.sip, ack := some ack,
          ict := { ict.ict with destination := h, port := p, timer_d_start := timer_d_start },
          state := .ICT_COMPLETED },
          pre ++ [.newMsg ack.id, .send ack h p,
            .cb (ict3456Cb resp.m) evt.sip, .cb .ICT_ACK_SENT (some ack)])
  else
    return ({ ict with
      last_response := evt.sip, ict := { ict.ict with timer_d_start := timer_d_start },
      state := .ICT_COMPLETED }, pre)

/-- `osip_ict_timeout_d_event` (src/osip2/ict_fsm.c:453-461). -/
def osip_ict_timeout_d_event (_env : Env) (ict : Tr) (_evt : Ev) : Out :=
  some ({ ict with
      ict := { ict.ict with timer_d_length := -1, timer_d_start := ict.ict.timer_d_start.off },
      state := .ICT_TERMINATED },
    [.kill .ICT])

/-- `ict_retransmit_ack` (src/osip2/ict_fsm.c:463-486). -/
def ict_retransmit_ack (env : Env) (ict : Tr) (evt : Ev) : Out := do
  let s ← sendMsg ict.ack ict.ict.destination ict.ict.port
  let pre : List Eff := .cb .ICT_STATUS_3456XX_RECEIVED_AGAIN evt.sip :: freeOpt evt.sip ++ [s]
  if env.send = 0 then
    return ({ ict with state := .ICT_COMPLETED }, pre ++ [.cb .ICT_ACK_SENT_AGAIN ict.ack])
  else
    let (t, e) := ict_handle_transport_error ict env.send
    return (t, pre ++ e)

/-- `__osip_ict_init` (src/osip2/ict.c:26-149): timers and destination of a new context.
`.error` is the returned error code. -/
def ict_init (now1 now2 : TimeVal) (invite : Msg) : Option (Except Int IctCtx) :=
  match invite.vias with
  | [] => some (.error OSIP_UNDEFINED_ERROR)
  | v :: _ => match v.protocol with
    | none => some (.error OSIP_SYNTAXERROR)
    | some proto => do
      let (h, p) ← requestDestination invite
      return .ok {
        timer_a_length := DEFAULT_T1
        timer_a_start := add_gettimeofday now1 DEFAULT_T1
        timer_d_length := if isReliable proto then 0
          else if 64 * DEFAULT_T1 < 32000 then 32000 else 64 * DEFAULT_T1
        timer_d_start := ⟨-1, 0⟩
        timer_b_length := 64 * DEFAULT_T1
        timer_b_start := add_gettimeofday now2 (64 * DEFAULT_T1)
        destination := h
        port := p }

/-! ## Non-INVITE client transaction -/

/-- `nict_handle_transport_error` (src/osip2/nict_fsm.c:101-108). -/
def nict_handle_transport_error (nict : Tr) (err : Int) : Tr × List Eff :=
  ({ nict with state := .NICT_TERMINATED }, [.tpErr .NICT err, .kill .NICT])

/-- Callback announcing that a request was sent (src/osip2/nict_fsm.c:122-138). -/
def nictSentCb (m : Msg) : Option Cb := do
  if ← m.isMethod "REGISTER" then return .NICT_REGISTER_SENT
  if ← m.isMethod "BYE" then return .NICT_BYE_SENT
  if ← m.isMethod "OPTIONS" then return .NICT_OPTIONS_SENT
  if ← m.isMethod "INFO" then return .NICT_INFO_SENT
  if ← m.isMethod "CANCEL" then return .NICT_CANCEL_SENT
  if ← m.isMethod "NOTIFY" then return .NICT_NOTIFY_SENT
  if ← m.isMethod "SUBSCRIBE" then return .NICT_SUBSCRIBE_SENT
  return .NICT_UNKNOWN_REQUEST_SENT

/-- `nict_snd_request` (src/osip2/nict_fsm.c:110-183). -/
def nict_snd_request (env : Env) (nict : Tr) (evt : Ev) : Out := do
  let nict := { nict with orig_request := evt.sip }
  let s ← sendMsg evt.sip nict.nict.destination nict.nict.port
  if env.send < 0 then
    let (t, e) := nict_handle_transport_error nict env.send
    return (t, s :: e)
  let r ← evt.sip
  let c ← nictSentCb r.m
  let pre : List Eff := [s, .cb c nict.orig_request]
  match topViaProto nict.orig_request with
  | .inl _ | .inr none =>
    let (t, e) := nict_handle_transport_error nict (-1)
    return (t, pre ++ e)
  | .inr (some proto) =>
    let ctx :=
      if isReliable proto then
        if env.send = 0 then
          { nict.nict with timer_e_length := -1, timer_e_start := nict.nict.timer_e_start.off }
        else { nict.nict with timer_e_length := DEFAULT_T1_TCP_PROGRESS }
      else nict.nict
    let ctx := if ctx.timer_e_length > 0 then
        { ctx with timer_e_start := add_gettimeofday env.now1 ctx.timer_e_length }
      else ctx
    return ({ nict with nict := ctx, state := .NICT_TRYING }, pre)

/-- `osip_nict_timeout_e_event` (src/osip2/nict_fsm.c:185-241). -/
def osip_nict_timeout_e_event (env : Env) (nict : Tr) (_evt : Ev) : Out := do
  let len0 := nict.nict.timer_e_length
  let len :=
    if nict.state = .NICT_TRYING then
      let l := if len0 < DEFAULT_T1 then len0 + DEFAULT_T1_TCP_PROGRESS else len0 * 2
      if l > DEFAULT_T2 then DEFAULT_T2 else l
    else DEFAULT_T2
  let nict := { nict with nict := { nict.nict with
    timer_e_length := len, timer_e_start := add_gettimeofday env.now1 len } }
  let s ← sendMsg nict.orig_request nict.nict.destination nict.nict.port
  if env.send < 0 then
    let (t, e) := nict_handle_transport_error nict env.send
    return (t, s :: e)
  if env.send = 0 then
    match topViaProto nict.orig_request with
    | .inl _ | .inr none =>
      let (t, e) := nict_handle_transport_error nict (-1)
      return (t, s :: e)
    | .inr (some proto) =>
      let ctx := if isReliable proto then
          { nict.nict with timer_e_length := -1, timer_e_start := nict.nict.timer_e_start.off }
        else nict.nict
      return ({ nict with nict := ctx }, [s, .cb .NICT_REQUEST_SENT_AGAIN nict.orig_request])
  else return (nict, [s])

/-- `osip_nict_timeout_f_event` (src/osip2/nict_fsm.c:243-252). -/
def osip_nict_timeout_f_event (_env : Env) (nict : Tr) (evt : Ev) : Out :=
  some ({ nict with
      nict := { nict.nict with timer_f_length := -1, timer_f_start := nict.nict.timer_f_start.off },
      state := .NICT_TERMINATED },
    [.cb .NICT_STATUS_TIMEOUT evt.sip, .kill .NICT])

/-- `osip_nict_timeout_k_event` (src/osip2/nict_fsm.c:254-262). -/
def osip_nict_timeout_k_event (_env : Env) (nict : Tr) (_evt : Ev) : Out :=
  some ({ nict with
      nict := { nict.nict with timer_k_length := -1, timer_k_start := nict.nict.timer_k_start.off },
      state := .NICT_TERMINATED },
    [.kill .NICT])

/-- `nict_rcv_1xx` (src/osip2/nict_fsm.c:264-283). -/
def nict_rcv_1xx (env : Env) (nict : Tr) (evt : Ev) : Out :=
  let ctx := if nict.nict.timer_e_length > 0 then
      { nict.nict with timer_e_length := DEFAULT_T2,
                       timer_e_start := add_gettimeofday env.now1 DEFAULT_T2 }
    else nict.nict
  some ({ nict with last_response := evt.sip, nict := ctx, state := .NICT_PROCEEDING },
    freeOpt nict.last_response ++ [.cb .NICT_STATUS_1XX_RECEIVED evt.sip])

/-- Callback announcing a final response (src/osip2/nict_fsm.c:295-304). -/
def nictFinalCb (t : EvType) (m : Msg) : Cb :=
  if t = .RCV_STATUS_2XX then .NICT_STATUS_2XX_RECEIVED
  else if m.isStatus 3 then .NICT_STATUS_3XX_RECEIVED
  else if m.isStatus 4 then .NICT_STATUS_4XX_RECEIVED
  else if m.isStatus 5 then .NICT_STATUS_5XX_RECEIVED
  else .NICT_STATUS_6XX_RECEIVED

/-- `nict_rcv_23456xx` (src/osip2/nict_fsm.c:285-311). -/
def nict_rcv_23456xx (env : Env) (nict : Tr) (evt : Ev) : Out := do
  let r ← evt.sip
  let k := if nict.state ≠ .NICT_COMPLETED then
      add_gettimeofday env.now1 nict.nict.timer_k_length
    else nict.nict.timer_k_start
  return ({ nict with
      last_response := evt.sip, nict := { nict.nict with timer_k_start := k },
      state := .NICT_COMPLETED },
    freeOpt nict.last_response ++ [.cb (nictFinalCb evt.type r.m) evt.sip])

/-- `__osip_nict_init` (src/osip2/nict.c:26-140). -/
def nict_init (now1 : TimeVal) (request : Msg) : Option (Except Int NictCtx) :=
  match request.vias with
  | [] => some (.error OSIP_UNDEFINED_ERROR)
  | v :: _ => match v.protocol with
    | none => some (.error OSIP_UNDEFINED_ERROR)
    | some proto => do
      let (h, p) ← requestDestination request
      return .ok {
        timer_e_length := DEFAULT_T1
        timer_e_start := ⟨-1, 0⟩
        timer_k_length := if isReliable proto then 0 else DEFAULT_T4
        timer_k_start := ⟨-1, 0⟩
        timer_f_length := 64 * DEFAULT_T1
        timer_f_start := add_gettimeofday now1 (64 * DEFAULT_T1)
        destination := h
        port := p }

/-! ## INVITE server transaction -/

/-- `ist_handle_transport_error` (src/osip2/ist_fsm.c:95-102). -/
def ist_handle_transport_error (ist : Tr) (err : Int) : Tr × List Eff :=
  ({ ist with state := .IST_TERMINATED }, [.tpErr .IST err, .kill .IST])

/-- Destination of a response taken from its top Via
(src/osip2/osip_transaction.c:812-837). -/
def viaDestination (via : Via) : Option Str × Int :=
  let maddr := paramByName via.via_params "maddr"
  let received := paramByName via.via_params "received"
  let rport := paramByName via.via_params "rport"
  let host := match maddr, received with
    | some p, _ => p.gvalue
    | none, some p => p.gvalue
    | none, none => via.host
  let port := match rport.bind (·.gvalue) with
    | some p => osip_atoi (some p)
    | none => match via.port with
      | some p => osip_atoi (some p)
      | none => 5060
  (host, port)

/-- `__osip_transaction_snd_xxx` (src/osip2/osip_transaction.c:797-841): the return value and
what was sent. `none`: the message is NULL. -/
def snd_xxx (env : Env) (msg : Option Ref) : Option (Int × List Eff) :=
  match msg with
  | none => none
  | some r => match r.m.vias with
    | [] => some (OSIP_SYNTAXERROR, [])
    | via :: _ => some (env.send, [.send r (viaDestination via).1 (viaDestination via).2])

/-- `ist_rcv_invite` (src/osip2/ist_fsm.c:104-141). -/
def ist_rcv_invite (env : Env) (ist : Tr) (evt : Ev) : Out :=
  if ist.state = .IST_PRE_PROCEEDING then
    some ({ ist with orig_request := evt.sip, state := .IST_PROCEEDING },
      [.cb .IST_INVITE_RECEIVED evt.sip])
  else
    let pre := freeOpt evt.sip ++ [.cb .IST_INVITE_RECEIVED_AGAIN ist.orig_request]
    match ist.last_response with
    | none => some (ist, pre)
    | some lr => do
      let (i, s) ← snd_xxx env (some lr)
      if i ≠ 0 then
        let (t, e) := ist_handle_transport_error ist i
        return (t, pre ++ s ++ e)
      else
        let c : Cb := if lr.m.isStatus 1 then .IST_STATUS_1XX_SENT
          else if lr.m.isStatus 2 then .IST_STATUS_2XX_SENT_AGAIN
          else .IST_STATUS_3456XX_SENT_AGAIN
        return (ist, pre ++ s ++ [.cb c ist.last_response])

/-- `osip_ist_timeout_g_event` (src/osip2/ist_fsm.c:143-160). -/
def osip_ist_timeout_g_event (env : Env) (ist : Tr) (_evt : Ev) : Out := do
  let l := ist.ist.timer_g_length * 2
  let l := if l > DEFAULT_T2 then DEFAULT_T2 else l
  let ist := { ist with ist := { ist.ist with
    timer_g_length := l, timer_g_start := add_gettimeofday env.now1 l } }
  let (i, s) ← snd_xxx env ist.last_response
  if i ≠ 0 then
    let (t, e) := ist_handle_transport_error ist i
    return (t, s ++ e)
  return (ist, s ++ [.cb .IST_STATUS_3456XX_SENT_AGAIN ist.last_response])

/-- `osip_ist_timeout_h_event` (src/osip2/ist_fsm.c:162-170). -/
def osip_ist_timeout_h_event (_env : Env) (ist : Tr) (_evt : Ev) : Out :=
  some ({ ist with
      ist := { ist.ist with timer_h_length := -1, timer_h_start := ist.ist.timer_h_start.off },
      state := .IST_TERMINATED },
    [.kill .IST])

/-- `osip_ist_timeout_i_event` (src/osip2/ist_fsm.c:172-180). -/
def osip_ist_timeout_i_event (_env : Env) (ist : Tr) (_evt : Ev) : Out :=
  some ({ ist with
      ist := { ist.ist with timer_i_length := -1, timer_i_start := ist.ist.timer_i_start.off },
      state := .IST_TERMINATED },
    [.kill .IST])

/-- `ist_snd_1xx` (src/osip2/ist_fsm.c:182-202). -/
def ist_snd_1xx (env : Env) (ist : Tr) (evt : Ev) : Out := do
  let pre := freeOpt ist.last_response
  let ist := { ist with last_response := evt.sip }
  let (i, s) ← snd_xxx env evt.sip
  if i ≠ 0 then
    let (t, e) := ist_handle_transport_error ist i
    return (t, pre ++ s ++ e)
  return (ist, pre ++ s ++ [.cb .IST_STATUS_1XX_SENT ist.last_response])

/-- `ist_snd_2xx` (src/osip2/ist_fsm.c:204-225). -/
def ist_snd_2xx (env : Env) (ist : Tr) (evt : Ev) : Out := do
  let pre := freeOpt ist.last_response
  let ist := { ist with last_response := evt.sip }
  let (i, s) ← snd_xxx env evt.sip
  if i ≠ 0 then
    let (t, e) := ist_handle_transport_error ist i
    return (t, pre ++ s ++ e)
  return ({ ist with state := .IST_TERMINATED },
    pre ++ s ++ [.cb .IST_STATUS_2XX_SENT ist.last_response, .kill .IST])

/-- `ist_snd_3456xx` (src/osip2/ist_fsm.c:227-261). -/
def ist_snd_3456xx (env : Env) (ist : Tr) (evt : Ev) : Out := do
  let pre := freeOpt ist.last_response
  let ist := { ist with last_response := evt.sip }
  let (i, s) ← snd_xxx env evt.sip
  if i ≠ 0 then
    let (t, e) := ist_handle_transport_error ist i
    return (t, pre ++ s ++ e)
  let r ← evt.sip
  let c : Cb := if r.m.isStatus 3 then .IST_STATUS_3XX_SENT
    else if r.m.isStatus 4 then .IST_STATUS_4XX_SENT
    else if r.m.isStatus 5 then .IST_STATUS_5XX_SENT
    else .IST_STATUS_6XX_SENT
  let g := if ist.ist.timer_g_length ≠ -1 then
      add_gettimeofday env.now1 ist.ist.timer_g_length
    else ist.ist.timer_g_start
  return ({ ist with
      ist := { ist.ist with
        timer_g_start := g,
        timer_h_start := add_gettimeofday env.now2 ist.ist.timer_h_length },
      state := .IST_COMPLETED },
    pre ++ s ++ [.cb c ist.last_response])

/-- `ist_rcv_ack` (src/osip2/ist_fsm.c:263-280). -/
def ist_rcv_ack (env : Env) (ist : Tr) (evt : Ev) : Out :=
  let c : Cb := if ist.state = .IST_COMPLETED then .IST_ACK_RECEIVED else .IST_ACK_RECEIVED_AGAIN
  some ({ ist with
      ack := evt.sip,
      ist := { ist.ist with timer_i_start := add_gettimeofday env.now1 ist.ist.timer_i_length },
      state := .IST_CONFIRMED },
    freeOpt ist.ack ++ [.cb c evt.sip])

/-- `__osip_ist_init` (src/osip2/ist.c:25-73). -/
def ist_init (invite : Msg) : Except Int IstCtx :=
  match invite.vias with
  | [] => .error OSIP_UNDEFINED_ERROR
  | v :: _ => match v.protocol with
    | none => .error OSIP_UNDEFINED_ERROR
    | some proto => .ok {
        timer_g_length := if isReliable proto then -1 else DEFAULT_T1
        timer_i_length := if isReliable proto then 0 else DEFAULT_T4
        timer_g_start := ⟨-1, 0⟩
        timer_i_start := ⟨-1, 0⟩
        timer_h_length := 64 * DEFAULT_T1
        timer_h_start := ⟨-1, 0⟩ }

/-! ## Non-INVITE server transaction -/

/-- `nist_handle_transport_error` (src/osip2/nist_fsm.c:89-96). -/
def nist_handle_transport_error (nist : Tr) (err : Int) : Tr × List Eff :=
  ({ nist with state := .NIST_TERMINATED }, [.tpErr .NIST err, .kill .NIST])

/-- Callback announcing a new request (src/osip2/nist_fsm.c:107-122). -/
def nistRcvCb (m : Msg) : Option Cb := do
  if ← m.isMethod "REGISTER" then return .NIST_REGISTER_RECEIVED
  if ← m.isMethod "BYE" then return .NIST_BYE_RECEIVED
  if ← m.isMethod "OPTIONS" then return .NIST_OPTIONS_RECEIVED
  if ← m.isMethod "INFO" then return .NIST_INFO_RECEIVED
  if ← m.isMethod "CANCEL" then return .NIST_CANCEL_RECEIVED
  if ← m.isMethod "NOTIFY" then return .NIST_NOTIFY_RECEIVED
  if ← m.isMethod "SUBSCRIBE" then return .NIST_SUBSCRIBE_RECEIVED
  return .NIST_UNKNOWN_REQUEST_RECEIVED

/-- `nist_rcv_request` (src/osip2/nist_fsm.c:98-152). -/
def nist_rcv_request (env : Env) (nist : Tr) (evt : Ev) : Out :=
  if nist.state = .NIST_PRE_TRYING then do
    let r ← evt.sip
    let c ← nistRcvCb r.m
    return ({ nist with orig_request := evt.sip, state := .NIST_TRYING }, [.cb c evt.sip])
  else
    let pre := freeOpt evt.sip ++ [.cb .NIST_REQUEST_RECEIVED_AGAIN nist.orig_request]
    match nist.last_response with
    | none => some (nist, pre)
    | some lr => do
      let (i, s) ← snd_xxx env (some lr)
      if i ≠ 0 then
        let (t, e) := nist_handle_transport_error nist i
        return (t, pre ++ s ++ e)
      else
        let c : Cb := if lr.m.isStatus 1 then .NIST_STATUS_1XX_SENT
          else if lr.m.isStatus 2 then .NIST_STATUS_2XX_SENT_AGAIN
          else .NIST_STATUS_3456XX_SENT_AGAIN
        return (nist, pre ++ s ++ [.cb c nist.last_response])

/-- `nist_snd_1xx` (src/osip2/nist_fsm.c:154-173). -/
def nist_snd_1xx (env : Env) (nist : Tr) (evt : Ev) : Out := do
  let pre := freeOpt nist.last_response
  let nist := { nist with last_response := evt.sip }
  let (i, s) ← snd_xxx env nist.last_response
  if i ≠ 0 then
    let (t, e) := nist_handle_transport_error nist i
    return (t, pre ++ s ++ e)
  return ({ nist with state := .NIST_PROCEEDING },
    pre ++ s ++ [.cb .NIST_STATUS_1XX_SENT nist.last_response])

/-- `nist_snd_23456xx` (src/osip2/nist_fsm.c:175-209). -/
def nist_snd_23456xx (env : Env) (nist : Tr) (evt : Ev) : Out := do
  let pre := freeOpt nist.last_response
  let nist := { nist with last_response := evt.sip }
  let (i, s) ← snd_xxx env nist.last_response
  if i ≠ 0 then
    let (t, e) := nist_handle_transport_error nist i
    return (t, pre ++ s ++ e)
  let r ← evt.sip
  let c : Cb := if evt.type = .SND_STATUS_2XX then .NIST_STATUS_2XX_SENT
    else if r.m.isStatus 3 then .NIST_STATUS_3XX_SENT
    else if r.m.isStatus 4 then .NIST_STATUS_4XX_SENT
    else if r.m.isStatus 5 then .NIST_STATUS_5XX_SENT
    else .NIST_STATUS_6XX_SENT
  let j := if nist.state ≠ .NIST_COMPLETED then
      add_gettimeofday env.now1 nist.nist.timer_j_length
    else nist.nist.timer_j_start
  return ({ nist with nist := { nist.nist with timer_j_start := j }, state := .NIST_COMPLETED },
    pre ++ s ++ [.cb c nist.last_response])

/-- `osip_nist_timeout_j_event` (src/osip2/nist_fsm.c:212-220). -/
def osip_nist_timeout_j_event (_env : Env) (nist : Tr) (_evt : Ev) : Out :=
  some ({ nist with
      nist := { nist.nist with timer_j_length := -1, timer_j_start := nist.nist.timer_j_start.off },
      state := .NIST_TERMINATED },
    [.kill .NIST])

/-- `__osip_nist_init` (src/osip2/nist.c:26-66). -/
def nist_init (invite : Msg) : Except Int NistCtx :=
  match invite.vias with
  | [] => .error OSIP_UNDEFINED_ERROR
  | v :: _ => match v.protocol with
    | none => .error OSIP_UNDEFINED_ERROR
    | some proto => .ok {
        timer_j_length := if isReliable proto then 0 else 64 * DEFAULT_T1
        timer_j_start := ⟨-1, 0⟩ }

/-! ## Dispatch -/

/-- The handlers named in the transition tables. -/
inductive H
  | ict_snd_invite | ict_timeout_a | ict_timeout_b | ict_rcv_1xx | ict_rcv_2xx | ict_rcv_3456xx
  | ict_retransmit_ack | ict_timeout_d
  | nict_snd_request | nict_timeout_e | nict_timeout_f | nict_timeout_k | nict_rcv_1xx
  | nict_rcv_23456xx
  | ist_rcv_invite | ist_timeout_g | ist_timeout_h | ist_timeout_i | ist_snd_1xx | ist_snd_2xx
  | ist_snd_3456xx | ist_rcv_ack
  | nist_rcv_request | nist_snd_1xx | nist_snd_23456xx | nist_timeout_j
deriving DecidableEq, Repr

/-- The function a table entry points to. -/
def H.run : H → Env → Tr → Ev → Out
  | .ict_snd_invite => Osip.ict_snd_invite
  | .ict_timeout_a => osip_ict_timeout_a_event
  | .ict_timeout_b => osip_ict_timeout_b_event
  | .ict_rcv_1xx => Osip.ict_rcv_1xx
  | .ict_rcv_2xx => Osip.ict_rcv_2xx
  | .ict_rcv_3456xx => Osip.ict_rcv_3456xx
  | .ict_retransmit_ack => Osip.ict_retransmit_ack
  | .ict_timeout_d => osip_ict_timeout_d_event
  | .nict_snd_request => Osip.nict_snd_request
  | .nict_timeout_e => osip_nict_timeout_e_event
  | .nict_timeout_f => osip_nict_timeout_f_event
  | .nict_timeout_k => osip_nict_timeout_k_event
  | .nict_rcv_1xx => Osip.nict_rcv_1xx
  | .nict_rcv_23456xx => Osip.nict_rcv_23456xx
  | .ist_rcv_invite => Osip.ist_rcv_invite
  | .ist_timeout_g => osip_ist_timeout_g_event
  | .ist_timeout_h => osip_ist_timeout_h_event
  | .ist_timeout_i => osip_ist_timeout_i_event
  | .ist_snd_1xx => Osip.ist_snd_1xx
  | .ist_snd_2xx => Osip.ist_snd_2xx
  | .ist_snd_3456xx => Osip.ist_snd_3456xx
  | .ist_rcv_ack => Osip.ist_rcv_ack
  | .nist_rcv_request => Osip.nist_rcv_request
  | .nist_snd_1xx => Osip.nist_snd_1xx
  | .nist_snd_23456xx => Osip.nist_snd_23456xx
  | .nist_timeout_j => osip_nist_timeout_j_event

/-- A transition table: state, event type, method, in list order. -/
abbrev Table := List (State × EvType × H)

/-- `ict_transition` (src/osip2/ict_fsm.c:26-84). -/
def ict_transition : Table := [
  (.ICT_PRE_CALLING, .SND_REQINVITE, .ict_snd_invite),
  (.ICT_CALLING, .TIMEOUT_A, .ict_timeout_a),
  (.ICT_CALLING, .TIMEOUT_B, .ict_timeout_b),
  (.ICT_CALLING, .RCV_STATUS_1XX, .ict_rcv_1xx),
  (.ICT_CALLING, .RCV_STATUS_2XX, .ict_rcv_2xx),
  (.ICT_CALLING, .RCV_STATUS_3456XX, .ict_rcv_3456xx),
  (.ICT_PROCEEDING, .RCV_STATUS_1XX, .ict_rcv_1xx),
  (.ICT_PROCEEDING, .RCV_STATUS_2XX, .ict_rcv_2xx),
  (.ICT_PROCEEDING, .RCV_STATUS_3456XX, .ict_rcv_3456xx),
  (.ICT_COMPLETED, .RCV_STATUS_3456XX, .ict_retransmit_ack),
  (.ICT_COMPLETED, .TIMEOUT_D, .ict_timeout_d)]

/-- `nict_transition` (src/osip2/nict_fsm.c:25-97). -/
def nict_transition : Table := [
  (.NICT_PRE_TRYING, .SND_REQUEST, .nict_snd_request),
  (.NICT_TRYING, .TIMEOUT_F, .nict_timeout_f),
  (.NICT_TRYING, .TIMEOUT_E, .nict_timeout_e),
  (.NICT_TRYING, .RCV_STATUS_1XX, .nict_rcv_1xx),
  (.NICT_TRYING, .RCV_STATUS_2XX, .nict_rcv_23456xx),
  (.NICT_TRYING, .RCV_STATUS_3456XX, .nict_rcv_23456xx),
  (.NICT_PROCEEDING, .TIMEOUT_F, .nict_timeout_f),
  (.NICT_PROCEEDING, .TIMEOUT_E, .nict_timeout_e),
  (.NICT_PROCEEDING, .RCV_STATUS_1XX, .nict_rcv_1xx),
  (.NICT_PROCEEDING, .RCV_STATUS_2XX, .nict_rcv_23456xx),
  (.NICT_PROCEEDING, .RCV_STATUS_3456XX, .nict_rcv_23456xx),
  (.NICT_COMPLETED, .TIMEOUT_K, .nict_timeout_k)]

/-- `ist_transition` (src/osip2/ist_fsm.c:25-91). -/
def ist_transition : Table := [
  (.IST_PRE_PROCEEDING, .RCV_REQINVITE, .ist_rcv_invite),
  (.IST_PROCEEDING, .RCV_REQINVITE, .ist_rcv_invite),
  (.IST_COMPLETED, .RCV_REQINVITE, .ist_rcv_invite),
  (.IST_COMPLETED, .TIMEOUT_G, .ist_timeout_g),
  (.IST_COMPLETED, .TIMEOUT_H, .ist_timeout_h),
  (.IST_PROCEEDING, .SND_STATUS_1XX, .ist_snd_1xx),
  (.IST_PROCEEDING, .SND_STATUS_2XX, .ist_snd_2xx),
  (.IST_PROCEEDING, .SND_STATUS_3456XX, .ist_snd_3456xx),
  (.IST_COMPLETED, .RCV_REQACK, .ist_rcv_ack),
  (.IST_CONFIRMED, .RCV_REQACK, .ist_rcv_ack),
  (.IST_CONFIRMED, .TIMEOUT_I, .ist_timeout_i)]

/-- `nist_transition` (src/osip2/nist_fsm.c:25-85). -/
def nist_transition : Table := [
  (.NIST_PRE_TRYING, .RCV_REQUEST, .nist_rcv_request),
  (.NIST_TRYING, .SND_STATUS_1XX, .nist_snd_1xx),
  (.NIST_TRYING, .SND_STATUS_2XX, .nist_snd_23456xx),
  (.NIST_TRYING, .SND_STATUS_3456XX, .nist_snd_23456xx),
  (.NIST_PROCEEDING, .SND_STATUS_1XX, .nist_snd_1xx),
  (.NIST_PROCEEDING, .SND_STATUS_2XX, .nist_snd_23456xx),
  (.NIST_PROCEEDING, .SND_STATUS_3456XX, .nist_snd_23456xx),
  (.NIST_PROCEEDING, .RCV_REQUEST, .nist_rcv_request),
  (.NIST_COMPLETED, .TIMEOUT_J, .nist_timeout_j),
  (.NIST_COMPLETED, .RCV_REQUEST, .nist_rcv_request)]

/-- `fsm_findmethod` (src/osip2/fsm_misc.c:29-40): the first entry with this type and state. -/
def fsm_findmethod (type : EvType) (state : State) (tbl : Table) : Option H :=
  (tbl.find? (fun e => e.2.1 == type && e.1 == state)).map (·.2.2)

/-- Choice of the table (src/osip2/osip_transaction.c:354-361). -/
def tableOf : Kind → Table
  | .ICT => ict_transition
  | .IST => ist_transition
  | .NICT => nict_transition
  | .NIST => nist_transition

/-- `osip_transaction_execute` (src/osip2/osip_transaction.c:333-377) with `fsm_callmethod`
(src/osip2/fsm_misc.c:42-55): transaction, effects, return value. A handler is called with the
event; without a handler the message of a message event is freed. -/
def osip_transaction_execute (env : Env) (tr : Tr) (evt : Ev) : Option (Tr × List Eff × Int) :=
  if evt.type = .KILL_TRANSACTION then some (tr, [], OSIP_SUCCESS)
  else match fsm_findmethod evt.type tr.state (tableOf tr.ctx_type) with
    | none => some (tr, if evt.type.isMsg then freeOpt evt.sip else [], 1)
    | some h => do
      let (t, e) ← h.run env tr evt
      return (t, e, 1)

/-- `osip_transaction_free2` (src/osip2/osip_transaction.c:273-319): the messages freed, in
order, for a transaction with the given events still queued. -/
def osip_transaction_free2 (tr : Tr) (queue : List Ev) : List Eff :=
  queue.flatMap (fun e => freeOpt e.sip)
    ++ freeOpt tr.orig_request ++ freeOpt tr.last_response ++ freeOpt tr.ack

/-- `evt_set_type_incoming_sipmessage` (src/osip2/osip_event.c:114-131); on requests the method is
known to be non-NULL. -/
def evt_type_incoming (m : Msg) : EvType :=
  if m.isRequest then
    if m.sip_method = some "INVITE".toList then .RCV_REQINVITE
    else if m.sip_method = some "ACK".toList then .RCV_REQACK
    else .RCV_REQUEST
  else if m.isStatus 1 then .RCV_STATUS_1XX
  else if m.isStatus 2 then .RCV_STATUS_2XX
  else .RCV_STATUS_3456XX

/-- `evt_set_type_outgoing_sipmessage` (src/osip2/osip_event.c:133-151). -/
def evt_type_outgoing (m : Msg) : EvType :=
  if m.isRequest then
    if m.sip_method = some "INVITE".toList then .SND_REQINVITE
    else if m.sip_method = some "ACK".toList then .SND_REQACK
    else .SND_REQUEST
  else if m.isStatus 1 then .SND_STATUS_1XX
  else if m.isStatus 2 then .SND_STATUS_2XX
  else .SND_STATUS_3456XX

/-- The check made before an event is built for a message (src/osip2/osip_event.c:54-60, 98-103):
a request needs a method and a Request-URI. -/
def evtAllowed (m : Msg) : Bool :=
  !m.isRequest || (m.sip_method.isSome && m.req_uri.isSome)

/-- The transaction part of `osip_transaction_init` (src/osip2/osip_transaction.c:110-239): a new
transaction of the given kind for a request, `.error` when set-up fails, outer `none` on NULL
dereference. Identification fields are modelled in `Verif/Match`. -/
def transactionInit (k : Kind) (now1 now2 : TimeVal) (request : Msg) : Option (Except Int Tr) :=
  match k with
  | .ICT => do
    match ← ict_init now1 now2 request with
    | .error e => return .error e
    | .ok c => return .ok { ctx_type := .ICT, state := .ICT_PRE_CALLING, ict := c }
  | .IST =>
    match ist_init request with
    | .error e => some (.error e)
    | .ok c => some (.ok { ctx_type := .IST, state := .IST_PRE_PROCEEDING, ist := c })
  | .NICT => do
    match ← nict_init now1 request with
    | .error e => return .error e
    | .ok c => return .ok { ctx_type := .NICT, state := .NICT_PRE_TRYING, nict := c }
  | .NIST =>
    match nist_init request with
    | .error e => some (.error e)
    | .ok c => some (.ok { ctx_type := .NIST, state := .NIST_PRE_TRYING, nist := c })

/-! ## Timers -/

/-- `__osip_transaction_need_timer_x_event` (src/osip2/osip_transaction.c:779-795) and the ten
`__osip_*_need_timer_*_event` functions (src/osip2/ict.c:174-191, nict.c:166-182, ist.c:85-101,
nist.c:81-85): is an event of type `t` due at time `now`? -/
def needTimer (tr : Tr) (t : EvType) (now : TimeVal) : Bool :=
  let due (cond : Bool) (timer : TimeVal) : Bool :=
    cond && !(timer.sec == -1) && timerGt now timer
  match t with
  | .TIMEOUT_A => due (tr.state == .ICT_CALLING) tr.ict.timer_a_start
  | .TIMEOUT_B => due (tr.state == .ICT_CALLING) tr.ict.timer_b_start
  | .TIMEOUT_D => due (tr.state == .ICT_COMPLETED) tr.ict.timer_d_start
  | .TIMEOUT_E => due (tr.state == .NICT_PROCEEDING || tr.state == .NICT_TRYING) tr.nict.timer_e_start
  | .TIMEOUT_F => due (tr.state == .NICT_PROCEEDING || tr.state == .NICT_TRYING) tr.nict.timer_f_start
  | .TIMEOUT_K => due (tr.state == .NICT_COMPLETED) tr.nict.timer_k_start
  | .TIMEOUT_G => due (tr.state == .IST_COMPLETED) tr.ist.timer_g_start
  | .TIMEOUT_H => due (tr.state == .IST_COMPLETED) tr.ist.timer_h_start
  | .TIMEOUT_I => due (tr.state == .IST_CONFIRMED) tr.ist.timer_i_start
  | .TIMEOUT_J => due (tr.state == .NIST_COMPLETED) tr.nist.timer_j_start
  | _ => false

/-- The order in which the timers of a transaction are tried
(src/osip2/osip.c:1433-1562). -/
def timerOrder : Kind → List EvType
  | .ICT => [.TIMEOUT_B, .TIMEOUT_A, .TIMEOUT_D]
  | .IST => [.TIMEOUT_I, .TIMEOUT_H, .TIMEOUT_G]
  | .NICT => [.TIMEOUT_K, .TIMEOUT_F, .TIMEOUT_E]
  | .NIST => [.TIMEOUT_J]

/-- The body of the loops in `osip_timers_ict_execute`, `osip_timers_ist_execute`,
`osip_timers_nict_execute` and `osip_timers_nist_execute` (src/osip2/osip.c:1432-1562) for one
transaction: the events added to its queue. Only the INVITE client loop looks at the queue first.
The clock is read once instead of once per timer. -/
def timersExecute (tr : Tr) (queue : List Ev) (now : TimeVal) : List Ev :=
  if tr.ctx_type = .ICT ∧ queue ≠ [] then []
  else match (timerOrder tr.ctx_type).find? (fun t => needTimer tr t now) with
    | none => []
    | some t => [⟨t, none⟩]

/-! ## Runs -/

/-- Record of one executed event: the state in which it was executed, the event, and what
`cb_send_message` would answer. History only: the model never reads it. -/
structure Done where
  state : State
  ev : Ev
  send : Int
deriving DecidableEq, Repr

/-- A transaction with its event queue, the next unused message address, and the history: the
effects (`trace`) and the executed events (`log`). -/
structure World where
  tr : Tr
  queue : List Ev
  next : Nat
  trace : List Eff
  log : List Done
deriving Repr

/-- What can be done to a transaction from outside. -/
inductive Op
  /-- a message arrives from the network and is queued (`osip_parse`, `osip_transaction_add_event`) -/
  | incoming (m : Msg)
  /-- the application submits a message (`osip_new_outgoing_sipmessage`, `osip_transaction_add_event`) -/
  | outgoing (m : Msg)
  /-- `osip_timers_*_execute` at time `now` -/
  | tick (now : TimeVal)
  /-- a timer event is queued at any time: a superset of what the timers do, it also covers a
  timer event queued by a thread that raced with the execution of an event -/
  | timer (t : EvType)
  /-- a kill event is queued -/
  | kill
  /-- the oldest queued event is executed -/
  | exec (send : Int) (now1 now2 : TimeVal)
deriving Repr

/-- One operation. Events are queued at the end (`osip_fifo_add`) and taken from the front
(`osip_fifo_tryget`), see `Verif/Fifo`. `timer t` for a `t` that is not a timer does nothing. -/
def World.step (w : World) : Op → Option World
  | .incoming m =>
    if evtAllowed m then
      some { w with queue := w.queue ++ [⟨evt_type_incoming m, some ⟨w.next, m⟩⟩],
                    next := w.next + 1, trace := w.trace ++ [.newMsg w.next] }
    else some w
  | .outgoing m =>
    if evtAllowed m then
      some { w with queue := w.queue ++ [⟨evt_type_outgoing m, some ⟨w.next, m⟩⟩],
                    next := w.next + 1, trace := w.trace ++ [.newMsg w.next] }
    else some w
  | .tick now => some { w with queue := w.queue ++ timersExecute w.tr w.queue now }
  | .timer t =>
    if t.isMsg || t == .KILL_TRANSACTION then some w
    else some { w with queue := w.queue ++ [⟨t, none⟩] }
  | .kill => some { w with queue := w.queue ++ [⟨.KILL_TRANSACTION, none⟩] }
  | .exec send now1 now2 =>
    match w.queue with
    | [] => some w
    | e :: q => do
      let (t, eff, _) ← osip_transaction_execute ⟨send, now1, now2, w.next⟩ w.tr e
      return { tr := t, queue := q, next := w.next + 1, trace := w.trace ++ eff,
               log := w.log ++ [⟨w.tr.state, e, send⟩] }

/-- A sequence of operations. -/
def World.run (w : World) : List Op → Option World
  | [] => some w
  | o :: os => do
    let w' ← w.step o
    w'.run os

/-- The world in which transaction `t` was just created. -/
def World.init (t : Tr) : World := ⟨t, [], 0, [], []⟩

end Osip
