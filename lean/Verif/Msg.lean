import Verif.Base

/-!
# Parsed SIP messages

The parts of `osip_message_t` and of the header structures which the transaction and dialog
layers look at. A `NULL` pointer is `none`; an `osip_list_t` is a `List` (justified by the
refinement proved in `Verif/CList`).
-/

namespace Osip

/-- `osip_generic_param_t` / `osip_uri_param_t` (include/osipparser2/osip_uri.h:55-59).
`gname` is never NULL in parameters built by the library. -/
structure Param where
  gname : Str
  gvalue : Option Str
deriving DecidableEq, Repr, Inhabited

/-- `osip_uri_t` (include/osipparser2/osip_uri.h:167-179). -/
structure Uri where
  scheme : Option Str := none
  username : Option Str := none
  password : Option Str := none
  host : Option Str := none
  port : Option Str := none
  url_params : List Param := []
  url_headers : List Param := []
  string : Option Str := none
deriving DecidableEq, Repr, Inhabited

/-- `osip_from_t`, also used for To, Contact, Route and Record-Route
(include/osipparser2/headers/osip_from.h). -/
structure From where
  displayname : Option Str := none
  url : Option Uri := none
  gen_params : List Param := []
deriving DecidableEq, Repr, Inhabited

/-- `osip_via_t` (include/osipparser2/headers/osip_via.h). -/
structure Via where
  version : Option Str := none
  protocol : Option Str := none
  host : Option Str := none
  port : Option Str := none
  comment : Option Str := none
  via_params : List Param := []
deriving DecidableEq, Repr, Inhabited

/-- `osip_call_id_t` (include/osipparser2/headers/osip_call_id.h:45-50). -/
structure CallId where
  number : Option Str := none
  host : Option Str := none
deriving DecidableEq, Repr, Inhabited

/-- `osip_cseq_t` (include/osipparser2/headers/osip_cseq.h:45-50). -/
structure CSeq where
  method : Option Str := none
  number : Option Str := none
deriving DecidableEq, Repr, Inhabited

/-- The part of `osip_message_t` (include/osipparser2/osip_message.h:55-115) used by the
transaction and dialog layers. `authorizations` and `proxy_authorizations` are kept as opaque
header values; headers the two layers never look at are left out. -/
structure Msg where
  status_code : Int := 0
  sip_version : Option Str := none
  sip_method : Option Str := none
  reason_phrase : Option Str := none
  req_uri : Option Uri := none
  vias : List Via := []
  from_ : Option From := none
  to : Option From := none
  call_id : Option CallId := none
  cseq : Option CSeq := none
  routes : List From := []
  record_routes : List From := []
  contacts : List From := []
  authorizations : List Str := []
  proxy_authorizations : List Str := []
deriving DecidableEq, Repr, Inhabited

/-- `MSG_IS_RESPONSE` (include/osipparser2/osip_message.h:240). -/
def Msg.isResponse (m : Msg) : Bool := m.status_code != 0
/-- `MSG_IS_REQUEST` (include/osipparser2/osip_message.h:245). -/
def Msg.isRequest (m : Msg) : Bool := m.status_code == 0
/-- `MSG_IS_STATUS_1XX` … `6XX` (include/osipparser2/osip_message.h:341-372):
`isStatus k` is `100*k <= status_code < 100*(k+1)`. -/
def Msg.isStatus (k : Int) (m : Msg) : Bool := decide (100 * k ≤ m.status_code ∧ m.status_code < 100 * (k + 1))

/-- `0==strcmp(method, name)` of the macros `MSG_IS_INVITE` etc.
(include/osipparser2/osip_message.h:251-335) on a request; `none`: `strcmp` on a NULL method. -/
def Msg.isMethod (m : Msg) (name : String) : Option Bool :=
  if m.isRequest then
    match m.sip_method with
    | none => none
    | some meth => some (meth == name.toList)
  else some false

/-- `osip_uri_param_get_byname` (src/osipparser2/osip_uri.c:837-869), through
`osip_via_param_get_byname`, `osip_uri_uparam_get_byname`, `osip_generic_param_get_byname`:
the first parameter whose name equals `pname` ignoring case. -/
def paramByName (ps : List Param) (pname : String) : Option Param :=
  ps.find? (fun p => p.gname.length == pname.toList.length && strcaseEq p.gname pname.toList)

/-- `osip_uri_clone` (src/osipparser2/osip_uri.c:740-780): fails on NULL or when both `host` and `string` are NULL;
otherwise an equal copy (allocation assumed to succeed). -/
def uriClone (u : Option Uri) : Option Uri :=
  match u with
  | none => none
  | some u => if u.host.isNone && u.string.isNone then none else some u

/-- `osip_from_clone` (src/osipparser2/osip_from.c:395-431), also `osip_to_clone`,
`osip_route_clone`: fails on NULL or if the URI cannot be cloned. -/
def fromClone (f : Option From) : Option From :=
  match f with
  | none => none
  | some f => match f.url with
    | none => some f
    | some u => match uriClone (some u) with
      | none => none
      | some u' => some { f with url := some u' }

/-- `osip_call_id_clone` (src/osipparser2/osip_call_id.c:181-201). -/
def callIdClone (c : Option CallId) : Option CallId :=
  match c with
  | none => none
  | some c => if c.number.isNone then none else some c

/-- `osip_cseq_clone` (src/osipparser2/osip_cseq.c:170-193). -/
def cseqClone (c : Option CSeq) : Option CSeq :=
  match c with
  | none => none
  | some c => if c.method.isNone || c.number.isNone then none else some c

/-- `osip_via_clone` (src/osipparser2/osip_via.c:416-472). -/
def viaClone (v : Option Via) : Option Via :=
  match v with
  | none => none
  | some v => if v.version.isNone || v.protocol.isNone || v.host.isNone then none else some v

end Osip
