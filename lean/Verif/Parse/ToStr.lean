import Verif.Parse.Message

/-!
# Writing messages: `src/osipparser2/osip_message_to_str.c`

The block `*dest` with `malloc_size` bytes is the text written so far; writing behind its end is undefined (`put`). Memory
allocation succeeds. The library is the one compiled without `MINISIZE`.
-/

set_option autoImplicit false

namespace Osip

/-- SIP_MESSAGE_MAX_LENGTH (include/osipparser2/osip_message.h:116). -/
def SIP_MESSAGE_MAX_LENGTH : Nat := 8000

/-- MIME_MAX_BOUNDARY_LEN (src/osipparser2/osip_message_to_str.c:25). -/
def MIME_MAX_BOUNDARY_LEN : Nat := 70

/-- The `…_to_str` function of a header (table in src/osipparser2/osip_message_to_str.c:390-434). -/
def headerToStr (fresh : Nat → Buf) (k : Setter) (x : HeaderVal) : Option (Int × Option Str) :=
  match x with
  | .via v => osip_via_to_str (some v)
  | .addr f => if k = .contact then osip_contact_to_str fresh (some f) else osip_from_to_str fresh (some f)
  | .callId c => osip_call_id_to_str (some c)
  | .cseq c => osip_cseq_to_str (some c)
  | .auth t F =>
    if k = .authorization ∨ k = .proxy_authorization then osip_authorization_to_str t F
    else if k = .www_authenticate ∨ k = .proxy_authenticate then osip_www_authenticate_to_str t F
    else osip_authentication_info_to_str t F
  | .entry e => osip_entry_to_str (some e)
  | .media ct => if k = .accept then osip_accept_to_str (some ct) else osip_content_type_to_str (some ct)
  | .value v => osip_content_length_to_str (some v)

/-- The table of the headers (src/osipparser2/osip_message_to_str.c:390-461): name, `header_length` and header. -/
def toStrTable : List (String × Nat × Setter) :=
  [("Via: ", 5, .via), ("Record-Route: ", 14, .record_route), ("Route: ", 7, .route), ("From: ", 6, .from), ("To: ", 4, .to),
   ("Call-ID: ", 9, .call_id), ("CSeq: ", 6, .cseq), ("Contact: ", 9, .contact), ("Authorization: ", 15, .authorization),
   ("WWW-Authenticate: ", 18, .www_authenticate), ("Proxy-Authenticate: ", 20, .proxy_authenticate),
   ("Proxy-Authorization: ", 21, .proxy_authorization), ("Call-Info: ", 11, .call_info), ("Content-Type: ", 14, .content_type),
   ("Mime-Version: ", 14, .mime_version), ("Allow: ", 7, .allow), ("Content-Encoding: ", 18, .content_encoding),
   ("Alert-Info: ", 12, .alert_info), ("Error-Info: ", 12, .error_info), ("Accept: ", 8, .accept),
   ("Accept-Encoding: ", 17, .accept_encoding), ("Accept-Language: ", 17, .accept_language),
   ("Authentication-Info: ", 21, .authentication_info), ("Proxy-Authentication-Info: ", 27, .proxy_authentication_info)]

/-- `osip_realloc` if `malloc_size` is less than what is `needed` behind the text. -/
def grow (size : Nat) (text : Str) (needed : Nat) : Nat :=
  if size < text.length + needed then text.length + needed else size

/-- `strcat_simple_header` (src/osipparser2/osip_message_to_str.c:154-214): code, `malloc_size` and text. -/
def strcat_simple_header (to_str : HeaderVal → Option (Int × Option Str)) (name : Str) (n : Nat) (hdr : Option HeaderVal)
    (size : Nat) (text : Str) : Option (Int × Nat × Str) :=
  match hdr with
  | none => some (OSIP_SUCCESS, size, text)
  | some x => do
    let size := grow size text (100 + n)
    let text ← put size text (name.take n)
    let (i, tmp) ← to_str x
    if i ≠ 0 then return (i, size, text)
    let tmp ← tmp
    let size := grow size text (tmp.length + 100)
    let text ← put size text tmp
    let text ← put size text "\r\n".toList
    return (OSIP_SUCCESS, size, text)

/-- `strcat_headers_one_per_line` (src/osipparser2/osip_message_to_str.c:216-280). -/
def strcat_headers (to_str : HeaderVal → Option (Int × Option Str)) (name : Str) (n : Nat) :
    List HeaderVal → Nat → Str → Option (Int × Nat × Str)
  | [], size, text => some (OSIP_SUCCESS, size, text)
  | x :: xs, size, text => do
    let size := grow size text (100 + n)
    let text1 ← put size text (name.take n)
    let (i, tmp) ← to_str x
    if i ≠ 0 then return (i, size, text)
    let tmp ← tmp
    let size := grow size text1 (tmp.length + 100)
    let text ← put size text1 tmp
    let text ← put size text "\r\n".toList
    strcat_headers to_str name n xs size text

/-- The loop over the table (src/osipparser2/osip_message_to_str.c:463-479). The code of `strcat_simple_header` is overwritten. -/
def tableLoop (fresh : Nat → Buf) (m : SipMessage) : List (String × Nat × Setter) → Nat → Str → Option (Int × Nat × Str)
  | [], size, text => some (OSIP_SUCCESS, size, text)
  | (name, n, k) :: rows, size, text => do
    let single := (presentCode k).isSome
    let (_, size, text) ← strcat_simple_header (headerToStr fresh k) name.toList n (if single then (m.hdr k).head? else none) size text
    let (i, size, text) ← strcat_headers (headerToStr fresh k) name.toList n (if single then [] else m.hdr k) size text
    if i ≠ 0 then return (i, size, text)
    tableLoop fresh m rows size text

/-- The loop over the other headers (src/osipparser2/osip_message_to_str.c:481-507). -/
def otherLoop : List Header → Nat → Str → Option (Int × Nat × Str)
  | [], size, text => some (OSIP_SUCCESS, size, text)
  | h :: hs, size, text => do
    let (i, tmp) ← osip_header_to_str (some h)
    if i ≠ 0 then return (i, size, text)
    let tmp ← tmp
    let size := grow size text (tmp.length + 3 + 100)
    let text ← put size text tmp
    let text ← put size text "\r\n".toList
    otherLoop hs size text

/-- The boundary of the bodies (src/osipparser2/osip_message_to_str.c:586-615); the inner `none` is the null pointer. One quotation
mark as value is first and last character, `len - 2` is then a huge `size_t`. -/
def mimeBoundary (m : SipMessage) : Option (Except Int (Option Str)) :=
  match (m.hdr .mime_version).head?, m.contentType with
  | some _, some { type := some type, subtype := _, gen_params := ps } =>
    if strcaseEq type "multipart".toList then
      match (paramByName ps "boundary").bind (·.gvalue) with
      | none => some (.ok none)
      | some gvalue =>
        if gvalue.length > MIME_MAX_BOUNDARY_LEN then some (.error OSIP_SYNTAXERROR)
        else if gvalue.head? = some '"' ∧ gvalue.getLast? = some '"' then
          if gvalue.length < 2 then none
          else some (.ok (some ("\r\n--".toList ++ (gvalue.drop 1).take (gvalue.length - 2))))
        else some (.ok (some ("\r\n--".toList ++ gvalue)))
    else some (.ok none)
  | _, _ => some (.ok none)

/-- `if (boundary)`: the boundary and what follows it. -/
def putBoundary (boundary : Option Str) (size : Nat) (text : List Char) (e : Str) : Option (List Char) :=
  match boundary with
  | some d => (put size text d).bind fun text => put size text e
  | none => some text

/-- The loop over the bodies (src/osipparser2/osip_message_to_str.c:617-668). -/
def bodiesLoop (boundary : Option Str) : List Body → Nat → List Char → Option (Int × Nat × List Char)
  | [], size, text => some (OSIP_SUCCESS, size, text)
  | b :: bs, size, text => do
    let text ← putBoundary boundary size text "\r\n".toList
    let (i, tmp) ← osip_body_to_str b
    if i ≠ 0 then return (i, size, text)
    let tmp ← tmp
    let size := grow size text (100 + tmp.length)
    let text ← put size text tmp
    bodiesLoop boundary bs size text

/-- `strncpy` of all characters of `s` to the position `pos` of the text. -/
def overwrite (text : List Char) (pos : Int) (s : Str) : Option (List Char) :=
  if 0 ≤ pos ∧ pos + s.length ≤ text.length then
    some (text.take pos.toNat ++ s ++ text.drop (pos.toNat + s.length))
  else none

/-- The bodies and the length of them (src/osipparser2/osip_message_to_str.c:586-708); `clpos` is the offset of
`content_length_to_modify`. -/
def bodiesToStr (m : SipMessage) (size : Nat) (text : List Char) (clpos : Nat) : Option (Int × SipMessage × Option (List Char)) := do
  match ← mimeBoundary m with
  | .error i => return (i, m, none)
  | .ok boundary =>
    let start_of_bodies := text.length
    let (i, size, text) ← bodiesLoop boundary m.bodies size text
    if i ≠ 0 then return (i, m, none)
    let text ← putBoundary boundary size text "--\r\n".toList
    let tmp2 := intText (toInt32 (text.length - start_of_bodies : Nat))
    let text ← overwrite text (clpos + 5 - tmp2.length) tmp2
    return (OSIP_SUCCESS, { m with cached := some text }, some text)

/-- `_osip_message_to_str` (src/osipparser2/osip_message_to_str.c:320-721): code, message and the bytes written. -/
def osip_message_to_str (fresh : Nat → Buf) (sipfrag : Bool) (m : SipMessage) : Option (Int × SipMessage × Option (List Char)) :=
  match m.cached with
  | some text => some (OSIP_SUCCESS, m, some text)
  | none => do
    let size := SIP_MESSAGE_MAX_LENGTH
    let (i, tmp) ← startline_to_str fresh m.start
    if i ≠ 0 ∧ ¬ sipfrag then return (i, m, none)
    let (size, text) ← (if i ≠ 0 then return (size, []) else do
      let tmp ← tmp
      let size := grow size [] (tmp.length + 3 + 100)
      let text ← put size [] tmp
      let text ← put size text "\r\n".toList
      return (size, text) : Option (Nat × Str))
    let (i, size, text) ← tableLoop fresh m toStrTable size text
    if i ≠ 0 then return (i, m, none)
    let (i, size, text) ← otherLoop m.headers size text
    if i ≠ 0 then return (i, m, none)
    let size := grow size text (16 + 100)
    if sipfrag ∧ m.bodies = [] then
      let text ← put size text "\r\n".toList
      return (OSIP_SUCCESS, { m with cached := some text }, some text)
    let text ← put size text "Content-Length: ".toList
    let clpos := text.length
    let text ← put size text (if m.bodies = [] then "0".toList else "     ".toList)
    let text ← put size text "\r\n".toList
    let text ← put size text "\r\n".toList
    if m.bodies = [] then return (OSIP_SUCCESS, { m with cached := some text }, some text)
    bodiesToStr m size text clpos

end Osip
