import Verif.Parse.HeaderTable
import Verif.Parse.Multi
import Verif.Parse.Start
import Verif.Parse.Via
import Verif.Parse.From
import Verif.Parse.Auth
import Verif.Parse.Body

/-!
# Whole messages: `src/osipparser2/osip_message_parse.c`, `osip_message_to_str.c` and the setters of the headers

Pointers as in `Verif/Parse/Ptr.lean`. Memory allocation succeeds. The library is the one compiled without `MINISIZE`.
-/

set_option autoImplicit false

namespace Osip

/-- The structures of the headers of a message. -/
inductive HeaderVal
  /-- `osip_via_t` -/
  | via (v : Via)
  /-- `osip_from_t`, also To, Contact, Route and Record-Route. -/
  | addr (f : From)
  /-- `osip_call_id_t` -/
  | callId (c : CallId)
  /-- `osip_cseq_t` -/
  | cseq (c : CSeq)
  /-- `osip_www_authenticate_t`, `osip_authorization_t` and `osip_authentication_info_t`. -/
  | auth (auth_type : Option Str) (F : Fields)
  /-- `osip_accept_encoding_t` and `osip_call_info_t`. -/
  | entry (e : ListEntry)
  /-- `osip_content_type_t` and `osip_accept_t`. -/
  | media (ct : MediaType)
  /-- `osip_content_length_t` and the structures defined as this one. -/
  | value (v : Option Str)

/-- `osip_message_t` (include/osipparser2/osip_message.h:55-110). The pointers and lists of the headers with a setter of their own
are `hdr`, a pointer being a list with at most one element. `cached` is `message` if `message_property` is 1. The remaining
members are not used by parser and serialiser. -/
structure SipMessage where
  start : StartLine := {}
  hdr : Setter → List HeaderVal := fun _ => []
  headers : List Header := []
  bodies : List Body := []
  cached : Option (List Char) := none

/-- A header is added to its list, or its pointer is set; `message_property` is 2 then. -/
def SipMessage.add (m : SipMessage) (k : Setter) (x : HeaderVal) : SipMessage :=
  { m with hdr := fun j => if j = k then m.hdr k ++ [x] else m.hdr j, cached := none }

/-- The headers held by a pointer, and the code which their setters return if there is such a header already
(osip_call_id.c:39-40, osip_content_length.c:49-50, osip_cseq.c:50-51, osip_content_type.c:52-53, osip_from.c:40-41,
osip_mime_version.c:40-41, osip_to.c:45-46). -/
def presentCode : Setter → Option Int
  | .call_id | .content_length | .from | .mime_version | .to => some OSIP_SYNTAXERROR
  | .cseq | .content_type => some OSIP_BADPARAMETER
  | _ => none

/-- The `…_parse` function which the setter calls on a fresh structure (names of other headers' functions:
include/osipparser2/headers/osip_accept_language.h:58, osip_mime_version.h:59, osip_proxy_authenticate.h:58, osip_allow.h:58,
osip_record_route.h:80, osip_proxy_authentication_info.h:58, osip_accept.h:64, osip_content_encoding.h:59, osip_to.h:87,
osip_route.h:80, osip_proxy_authorization.h:59, osip_alert_info.h, osip_error_info.h). A null pointer is read by most of them. -/
def parseHeader (sscanf : Str → Option Nat) (k : Setter) (hvalue : Option (List Char)) : Option (Int × HeaderVal) :=
  match k with
  | .accept | .content_type => (osip_content_type_parse hvalue).map fun (i, x) => (i, .media x)
  | .content_length | .mime_version | .allow | .content_encoding =>
    (osip_content_length_parse hvalue).map fun (i, x) => (i, .value x)
  | .via => hvalue.bind fun h => (osip_via_parse h).map fun (i, x) => (i, .via x)
  | .from | .to | .route | .record_route => hvalue.bind fun h => (osip_from_parse sscanf h).map fun (i, x) => (i, .addr x)
  | .contact => hvalue.bind fun h => (osip_contact_parse sscanf h).map fun (i, x) => (i, .addr x)
  | .call_id => hvalue.bind fun h => (osip_call_id_parse h).map fun (i, x) => (i, .callId x)
  | .cseq => hvalue.bind fun h => (osip_cseq_parse h).map fun (i, x) => (i, .cseq x)
  | .www_authenticate | .proxy_authenticate =>
    hvalue.bind fun h => (osip_www_authenticate_parse h).map fun (i, t, F) => (i, .auth t F)
  | .authorization | .proxy_authorization =>
    hvalue.bind fun h => (osip_authorization_parse h).map fun (i, t, F) => (i, .auth t F)
  | .authentication_info | .proxy_authentication_info =>
    hvalue.bind fun h => (osip_authentication_info_parse h).map fun (i, t, F) => (i, .auth t F)
  | .accept_encoding | .accept_language => hvalue.bind fun h => (osip_accept_encoding_parse h).map fun (i, x) => (i, .entry x)
  | .call_info | .alert_info | .error_info => hvalue.bind fun h => (osip_call_info_parse h).map fun (i, x) => (i, .entry x)

/-- The setters (src/osipparser2: osip_accept.c:33-50, osip_accept_encoding.c:33-52, osip_accept_language.c:30-49,
osip_alert_info.c:30-49, osip_allow.c:30-49, osip_authentication_info.c:45-67, osip_authorization.c:42-63, osip_call_id.c:31-51,
osip_call_info.c:28-47, osip_contact.c:31-50, osip_content_encoding.c:33-52, osip_content_length.c:41-62, osip_content_type.c:48-69,
osip_cseq.c:42-62, osip_error_info.c:30-49, osip_from.c:32-52, osip_mime_version.c:32-52, osip_proxy_authenticate.c:31-50,
osip_proxy_authentication_info.c:34-54, osip_proxy_authorization.c:33-52, osip_record_route.c:39-58, osip_route.c:39-62,
osip_to.c:38-58, osip_via.c:32-51, osip_www_authenticate.c:42-63). The one of Accept reads also an absent value, the one of
Content-Type looks at the pointer first. -/
def callSetter (sscanf : Str → Option Nat) (k : Setter) (m : SipMessage) (hvalue : Option Str) : Option (Int × SipMessage) := do
  if k = .content_type ∧ (m.hdr k).length ≠ 0 then return (OSIP_BADPARAMETER, m)
  if k ≠ .accept ∧ (hvalue = none ∨ hvalue = some []) then return (OSIP_SUCCESS, m)
  match presentCode k with
  | some code =>
    if (m.hdr k).length ≠ 0 then return (code, m)
    let m := { m with cached := none }
    let (i, x) ← parseHeader sscanf k (hvalue.map Str.buf)
    if i ≠ 0 then return (i, m)
    return (OSIP_SUCCESS, m.add k x)
  | none =>
    let (i, x) ← parseHeader sscanf k (hvalue.map Str.buf)
    if i ≠ 0 then return (i, m)
    return (OSIP_SUCCESS, m.add k x)

/-- `osip_message_set__header` (src/osipparser2/osip_message_parse.c:397-423) with `__osip_message_call_method`
(src/osipparser2/osip_parser_cfg.c:233-247); `t` is the hash table. -/
def message_set__header (sscanf : Str → Option Nat) (signed : Bool) (t : List (Option Nat)) (m : SipMessage) (hname : Str)
    (hvalue : Option Str) : Option (Int × SipMessage) := do
  match ← is_known_header signed false t hname with
  | some i =>
    let e ← (pconfig false)[i]?
    let (err, m) ← callSetter sscanf e.setheader m hvalue
    return (if e.ignored_when_invalid then 0 else err, m)
  | none =>
    let (i, h) ← osip_message_set_header (some (Str.buf hname)) (hvalue.map Str.buf)
    if i ≠ 0 then return (OSIP_SUCCESS, m)
    let h ← h
    return (OSIP_SUCCESS, { m with headers := m.headers ++ [h], cached := none })

/-- The values are handed to `osip_message_set__header` one after the other. -/
def setValues (set : SipMessage → Option Str → Option (Int × SipMessage)) : SipMessage → List Str → Option SipMessage
  | m, [] => some m
  | m, v :: vs => do
    let (_, m) ← set m (some v)
    setValues set m vs

/-- The code of `osip_message_set__header` for the value `v` behind the values `acc`, the last one first. An undefined step gives
some code: the whole call is undefined then. -/
def valueCode (set : SipMessage → Option Str → Option (Int × SipMessage)) (m : SipMessage) (acc : List Str) (v : Str) : Int :=
  match (setValues set m acc.reverse).bind fun m => set m (some v) with
  | some (i, _) => i
  | none => OSIP_SYNTAXERROR

/-- `osip_message_set_multiple_header` (src/osipparser2/osip_message_parse.c:425-570) on a message. The name is made lower case
first. `set_multiple_header` gives the code and the values handed over. -/
def message_set_multiple (sscanf : Str → Option Nat) (signed : Bool) (t : List (Option Nat)) (m : SipMessage) (hname : Str)
    (hvalue : Option Str) : Option (Int × SipMessage) := do
  let hname ← osip_tolower (Str.buf hname)
  let hname ← cstr hname
  let set := fun m v => message_set__header sscanf signed t m hname v
  match hvalue with
  | none => set m none
  | some v =>
    let (i, vals) ← set_multiple_header (valueCode set m) hname (Str.buf v)
    let m ← setValues set m vals.reverse
    return (i, m)

/-- `sip->content_length->value` for a Content-Length. -/
def SipMessage.contentLength (m : SipMessage) : Option (Option Str) :=
  match m.hdr .content_length with
  | .value v :: _ => some v
  | _ => none

/-- `sip->content_type`. -/
def SipMessage.contentType (m : SipMessage) : Option MediaType :=
  match m.hdr .content_type with
  | .media ct :: _ => some ct
  | _ => none

/-- `osip_message_set_content_length` with a value if there is none. -/
def SipMessage.defaultLength (m : SipMessage) (v : Str) : SipMessage :=
  if m.contentLength = none then m.add .content_length (.value (some v)) else m

/-- `while (tmp[0] == '\r' || tmp[0] == '\n') tmp++;` -/
def skipBlankLines : List Char → Option (List Char)
  | [] => none
  | c :: t => if c = '\r' ∨ c = '\n' then skipBlankLines t else some (c :: t)

/-- The conditions under which there is a body (src/osipparser2/osip_message_parse.c:867-877); `length` is `length - (tmp - beg)`. -/
def hasBody (content_length : Option Str) (tmp : List Char) (length : Nat) : Option Bool :=
  match content_length with
  | some v => some (osip_atoi (some v) > 0)
  | none => do
    let c ← deref tmp
    let crlf ← (if c = '\r' then do return (← deref (tmp.drop 1)) = '\n' else return false : Option Bool)
    -- `size_t`
    return (crlf ∧ length ≠ 2) ∨ (c = '\n' ∧ length ≠ 1)

/-- The end of `_osip_message_parse` (src/osipparser2/osip_message_parse.c:859-892). -/
def parseRest (m : SipMessage) (tmp : List Char) : Option (Int × SipMessage) := do
  let length := tmp.length - 1
  let m := if m.contentLength = some none then { m with hdr := fun j => if j = .content_length then [] else m.hdr j } else m
  let cl := m.contentLength.bind id
  if ← hasBody cl tmp length then
    let (i, bodies, cl) ← msg_osip_body_parse m.contentType cl tmp length
    let m := match cl with
      | some v => m.defaultLength v
      | none => m
    let m := { m with bodies := m.bodies ++ bodies, cached := none }
    if i ≠ 0 then return (i, m)
    return (OSIP_SUCCESS, m.defaultLength "0".toList)
  else return (OSIP_SUCCESS, m.defaultLength "0".toList)

/-- `osip_message_parse` (src/osipparser2/osip_message_parse.c:823-898) of the bytes `buf` into a message as made by
`osip_message_init`. The copy has a terminator; the byte behind it is never written and may not be read. If the empty line is
missing, `next_header_index` still points to the start of the headers. -/
def osip_message_parse (sscanf : Str → Option Nat) (sscanfD : Str → Option Int) (signed : Bool) (t : List (Option Nat))
    (buf : List Char) : Option (Int × SipMessage) := do
  let tmp ← skipBlankLines (buf ++ [NUL])
  let tmp ← replace_all_lws tmp
  let (i, start, headers) ← startline_parse sscanf sscanfD tmp
  let m : SipMessage := { start := start }
  if i ≠ 0 then return (i, m)
  let (i, m, body) ← msg_headers_parse (message_set_multiple sscanf signed t) m headers
  if i ≠ 0 then return (i, m)
  parseRest m (body.getD headers)

end Osip
