import Verif.Parse.Message
import Verif.Parse.ToStr

/-!
# Copying messages: `osip_message_clone` and the `…_clone` functions of the headers

Every function gives a code and the copy, if there is one. Memory allocation succeeds, so `osip_strdup` of a string
(src/osipparser2/osip_port.c:345-359) is the same string. The library is the one compiled without `MINISIZE`.
-/

set_option autoImplicit false

namespace Osip

/-- `osip_list_clone` (src/osipparser2/osip_list.c:34-49): code and the list which was empty before. -/
def osip_list_clone {α : Type} (clone_func : α → Int × Option α) : List α → List α → Int × List α
  | [], dst => (OSIP_SUCCESS, dst)
  | data :: src, dst =>
    match clone_func data with
    | (i, data2) => if i ≠ 0 then (i, dst) else osip_list_clone clone_func src (dst ++ data2.toList)

/-- `osip_uri_param_clone` (src/osipparser2/osip_uri.c:871-893), also the one of the generic parameters; the name is never NULL
here. -/
def osip_uri_param_clone (uparam : Param) : Int × Option Param :=
  (OSIP_SUCCESS, some { gname := uparam.gname, gvalue := uparam.gvalue })

/-- `osip_uri_clone` (src/osipparser2/osip_uri.c:740-780). -/
def osip_uri_clone (url : Uri) : Int × Option Uri :=
  if url.host = none ∧ url.string = none then (OSIP_BADPARAMETER, none)
  else
    let ur : Uri := { scheme := url.scheme, username := url.username, password := url.password, host := url.host, port := url.port,
                      string := url.string }
    match osip_list_clone osip_uri_param_clone url.url_params ur.url_params with
    | (i, ps) =>
      if i ≠ 0 then (i, none)
      else match osip_list_clone osip_uri_param_clone url.url_headers ur.url_headers with
        | (i, hs) => if i ≠ 0 then (i, none) else (OSIP_SUCCESS, some { ur with url_params := ps, url_headers := hs })

/-- A pointer which is cloned if it is not NULL. -/
def cloneOpt {α : Type} (clone_func : α → Int × Option α) : Option α → Int × Option α
  | none => (OSIP_SUCCESS, none)
  | some x => clone_func x

/-- `osip_from_clone` (src/osipparser2/osip_from.c:395-431); also for To, Contact, Route and Record-Route
(include/osipparser2/headers/osip_to.h:89, osip_contact.h:82, osip_route.h:82, osip_record_route.h:82). -/
def osip_from_clone (frm : From) : Int × Option From :=
  match cloneOpt osip_uri_clone frm.url with
  | (i, url) =>
    if i ≠ 0 then (i, none)
    else match osip_list_clone osip_uri_param_clone frm.gen_params [] with
      | (i, ps) => if i ≠ 0 then (i, none) else (OSIP_SUCCESS, some { displayname := frm.displayname, url := url, gen_params := ps })

/-- `osip_via_clone` (src/osipparser2/osip_via.c:416-472). -/
def osip_via_clone (via : Via) : Int × Option Via :=
  if via.version = none then (OSIP_BADPARAMETER, none)
  else if via.protocol = none then (OSIP_BADPARAMETER, none)
  else if via.host = none then (OSIP_BADPARAMETER, none)
  else
    let vi : Via := { version := via.version, protocol := via.protocol, host := via.host, port := via.port, comment := via.comment }
    match osip_list_clone osip_uri_param_clone via.via_params vi.via_params with
    | (i, ps) => if i ≠ 0 then (i, none) else (OSIP_SUCCESS, some { vi with via_params := ps })

/-- `osip_call_id_clone` (src/osipparser2/osip_call_id.c:180-201). -/
def osip_call_id_clone (callid : CallId) : Int × Option CallId :=
  if callid.number = none then (OSIP_BADPARAMETER, none)
  else (OSIP_SUCCESS, some { number := callid.number, host := callid.host })

/-- `osip_cseq_clone` (src/osipparser2/osip_cseq.c:169-193). -/
def osip_cseq_clone (cseq : CSeq) : Int × Option CSeq :=
  if cseq.method = none then (OSIP_BADPARAMETER, none)
  else if cseq.number = none then (OSIP_BADPARAMETER, none)
  else (OSIP_SUCCESS, some { method := cseq.method, number := cseq.number })

/-- The members of `F` which are in `names` are copied, the others are NULL. -/
def copyFields (names : List Str) (F : Fields) : Fields := fun n => if n ∈ names then F n else none

/-- The members copied by `osip_www_authenticate_clone` (src/osipparser2/osip_www_authenticate.c:664-725); `qop` is
`qop_options`. -/
def wwwCopied : List Str :=
  ["realm".toList, "domain".toList, "nonce".toList, "opaque".toList, "stale".toList, "algorithm".toList, "qop".toList,
   "version".toList, "targetname".toList, "gssapi-data".toList]

/-- `osip_www_authenticate_clone` (src/osipparser2/osip_www_authenticate.c:644-730). -/
def osip_www_authenticate_clone (t : Option Str) (F : Fields) : Int × Option HeaderVal :=
  if t = none then (OSIP_BADPARAMETER, none) else (OSIP_SUCCESS, some (.auth t (copyFields wwwCopied F)))

/-- The members copied by `osip_authorization_clone` (src/osipparser2/osip_authorization.c:748-859); `qop` is `message_qop` and `nc`
is `nonce_count`. -/
def authCopied : List Str :=
  ["username".toList, "realm".toList, "nonce".toList, "uri".toList, "response".toList, "digest".toList, "algorithm".toList,
   "cnonce".toList, "opaque".toList, "qop".toList, "nc".toList, "version".toList, "targetname".toList, "gssapi-data".toList,
   "crand".toList, "cnum".toList]

/-- `osip_authorization_clone` (src/osipparser2/osip_authorization.c:719-864): the `auth_type` may be NULL. -/
def osip_authorization_clone (t : Option Str) (F : Fields) : Int × Option HeaderVal :=
  (OSIP_SUCCESS, some (.auth t (copyFields authCopied F)))

/-- The members copied by `osip_authentication_info_clone` (src/osipparser2/osip_authentication_info.c:544-563); `qop` is
`qop_options` and `nc` is `nonce_count`. -/
def infoCopied : List Str :=
  ["nextnonce".toList, "cnonce".toList, "rspauth".toList, "nc".toList, "qop".toList, "snum".toList, "srand".toList,
   "targetname".toList, "realm".toList, "opaque".toList]

/-- `osip_authentication_info_clone` (src/osipparser2/osip_authentication_info.c:529-567). -/
def osip_authentication_info_clone (t : Option Str) (F : Fields) : Int × Option HeaderVal :=
  (OSIP_SUCCESS, some (.auth t (copyFields infoCopied F)))

/-- `osip_accept_encoding_clone` (src/osipparser2/osip_accept_encoding.c:165-201) and `osip_call_info_clone`
(src/osipparser2/osip_call_info.c:173-201); the loop of the first is the one of `osip_list_clone` written out. -/
def osip_entry_clone (ctt : ListEntry) : Int × Option ListEntry :=
  if ctt.element = none then (OSIP_BADPARAMETER, none)
  else match osip_list_clone osip_uri_param_clone ctt.gen_params [] with
    | (i, ps) => if i ≠ 0 then (i, none) else (OSIP_SUCCESS, some { element := ctt.element, gen_params := ps })

/-- `osip_content_type_clone` (src/osipparser2/osip_content_type.c:210-244). -/
def osip_content_type_clone (ctt : MediaType) : Int × Option MediaType :=
  match osip_list_clone osip_uri_param_clone ctt.gen_params [] with
  | (i, ps) => if i ≠ 0 then (i, none) else (OSIP_SUCCESS, some { type := ctt.type, subtype := ctt.subtype, gen_params := ps })

/-- `osip_content_length_clone` (src/osipparser2/osip_content_length.c:117-143). -/
def osip_content_length_clone (v : Option Str) : Int × Option (Option Str) := (OSIP_SUCCESS, some v)

/-- `osip_header_clone` (src/osipparser2/osip_header.c:284-315). -/
def osip_header_clone (header : Header) : Int × Option Header :=
  if header.hname = none then (OSIP_BADPARAMETER, none)
  else (OSIP_SUCCESS, some { hname := header.hname, hvalue := header.hvalue })

/-- `osip_body_clone` (src/osipparser2/osip_body.c:75-114). -/
def osip_body_clone (body : Body) : Int × Option Body :=
  if body.body.length ≤ 0 then (OSIP_BADPARAMETER, none)
  else match cloneOpt osip_content_type_clone body.content_type with
    | (i, ct) =>
      if i ≠ 0 then (i, none)
      else match osip_list_clone osip_header_clone body.headers [] with
        | (i, hs) => if i ≠ 0 then (i, none) else (OSIP_SUCCESS, some { body := body.body, content_type := ct, headers := hs })

/-- The `…_clone` function of a header (calls in src/osipparser2/osip_message.c:208-340; names of other headers' functions:
include/osipparser2/headers/osip_accept.h:76, osip_accept_language.h:75, osip_alert_info.h:75, osip_allow.h:75,
osip_content_encoding.h:76, osip_error_info.h:75, osip_mime_version.h:76, osip_proxy_authenticate.h:75,
osip_proxy_authentication_info.h:75, osip_proxy_authorization.h:76). -/
def cloneHeader (k : Setter) (x : HeaderVal) : Int × Option HeaderVal :=
  match x with
  | .via v => (osip_via_clone v).map id (Option.map .via)
  | .addr f => (osip_from_clone f).map id (Option.map .addr)
  | .callId c => (osip_call_id_clone c).map id (Option.map .callId)
  | .cseq c => (osip_cseq_clone c).map id (Option.map .cseq)
  | .auth t F =>
    if k = .authorization ∨ k = .proxy_authorization then osip_authorization_clone t F
    else if k = .www_authenticate ∨ k = .proxy_authenticate then osip_www_authenticate_clone t F
    else osip_authentication_info_clone t F
  | .entry e => (osip_entry_clone e).map id (Option.map .entry)
  | .media ct => (osip_content_type_clone ct).map id (Option.map .media)
  | .value v => (osip_content_length_clone v).map id (Option.map .value)

/-- The headers in the order in which they are copied (src/osipparser2/osip_message.c:208-340). -/
def cloneOrder : List Setter :=
  [.accept, .accept_encoding, .accept_language, .alert_info, .allow, .authentication_info, .content_encoding, .error_info,
   .proxy_authentication_info, .call_info, .authorization, .call_id, .contact, .content_length, .content_type, .cseq, .from,
   .mime_version, .proxy_authenticate, .proxy_authorization, .record_route, .route, .to, .via, .www_authenticate]

/-- The statements which copy the headers: code and copy. A pointer is a list with at most one element. -/
def cloneHeaders (sip : SipMessage) : List Setter → SipMessage → Int × SipMessage
  | [], copy => (OSIP_SUCCESS, copy)
  | k :: ks, copy =>
    match osip_list_clone (cloneHeader k) (sip.hdr k) (copy.hdr k) with
    | (i, xs) =>
      if i ≠ 0 then (i, copy) else cloneHeaders sip ks { copy with hdr := fun j => if j = k then xs else copy.hdr j }

/-- A copied message. The text which is used if `message_property` is 1 consists of the block made by `osip_strdup` and of
`message_length`; the member `cached` of `msg` is not used. -/
structure MessageCopy where
  msg : SipMessage
  text : Option (List Char × Nat) := none

/-- The block made by `osip_strdup` (src/osipparser2/osip_port.c:345-359) of bytes followed by NUL: the bytes before the first NUL,
and a NUL. -/
def strdupBlock (bytes : List Char) : List Char := bytes.takeWhile (· ≠ NUL) ++ [NUL]

/-- `osip_message_clone` (src/osipparser2/osip_message.c:172-373). -/
def osip_message_clone (sip : SipMessage) : Int × Option MessageCopy :=
  match cloneOpt osip_uri_clone sip.start.req_uri with
  | (i, uri) =>
    if i ≠ 0 then (i, none)
    else
      let copy : SipMessage :=
        { start := { sip_method := sip.start.sip_method, sip_version := sip.start.sip_version, status_code := sip.start.status_code,
                     reason_phrase := sip.start.reason_phrase, req_uri := uri } }
      match cloneHeaders sip cloneOrder copy with
      | (i, copy) =>
        if i ≠ 0 then (i, none)
        else match osip_list_clone osip_header_clone sip.headers [] with
          | (i, hs) =>
            if i ≠ 0 then (i, none)
            else match osip_list_clone osip_body_clone sip.bodies [] with
              | (i, bs) =>
                if i ≠ 0 then (i, none)
                else (OSIP_SUCCESS, some { msg := { copy with headers := hs, bodies := bs },
                                           text := sip.cached.map fun t => (strdupBlock t, t.length) })

/-- `_osip_message_to_str` (src/osipparser2/osip_message_to_str.c:320-721) of a copied message: the cached text is read with
`memcpy (*dest, sip->message, sip->message_length)` (343-353). -/
def MessageCopy.to_str (fresh : Nat → Buf) (sipfrag : Bool) (c : MessageCopy) : Option (Int × Option (List Char)) :=
  match c.text with
  | some (message, message_length) => (memcpy message message_length).map fun t => (OSIP_SUCCESS, some t)
  | none => (osip_message_to_str fresh sipfrag c.msg).map fun r => (r.1, r.2.2)

end Osip
