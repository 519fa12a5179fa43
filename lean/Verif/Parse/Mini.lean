import Verif.Parse.Frag

/-!
# Reading messages in the library compiled with `MINISIZE`

The table of the headers with a setter of their own is shorter (src/osipparser2/osip_parser_cfg.c:63-170,
`pconfig true`), and the members of the message for the other headers are missing
(include/osipparser2/osip_message.h:55-110): their lists stay empty here. Of the other functions that take part in reading some are
replaced by the ones they call (include/osipparser2/headers/osip_to.h:87) or by those of libc
(include/osipparser2/osip_port.h:166-175): `strcasecmp` and `strncasecmp` do the same on the strings that are compared, and
`atoi`, which is `strtol` converted to `int` on Linux, differs from `osip_atoi` on `NULL` only, which is not handed to it while
reading; the definitions of the full library are used for them.
-/

set_option autoImplicit false

namespace Osip

/-- `osip_message_set__header` (src/osipparser2/osip_message_parse.c:397-423) with `MINISIZE`. -/
def mini_set__header (sscanf : Str → Option Nat) (signed : Bool) (t : List (Option Nat)) (m : SipMessage) (hname : Str)
    (hvalue : Option Str) : Option (Int × SipMessage) := do
  match ← is_known_header signed true t hname with
  | some i =>
    let e ← (pconfig true)[i]?
    let (err, m) ← callSetter sscanf e.setheader m hvalue
    return (if e.ignored_when_invalid then 0 else err, m)
  | none =>
    let (i, h) ← osip_message_set_header (some (Str.buf hname)) (hvalue.map Str.buf)
    if i ≠ 0 then return (OSIP_SUCCESS, m)
    let h ← h
    return (OSIP_SUCCESS, { m with headers := m.headers ++ [h], cached := none })

/-- `osip_message_set_multiple_header` (src/osipparser2/osip_message_parse.c:425-570) with `MINISIZE`. -/
def mini_set_multiple (sscanf : Str → Option Nat) (signed : Bool) (t : List (Option Nat)) (m : SipMessage) (hname : Str)
    (hvalue : Option Str) : Option (Int × SipMessage) := do
  let hname ← osip_tolower (Str.buf hname)
  let hname ← cstr hname
  let set := fun m v => mini_set__header sscanf signed t m hname v
  match hvalue with
  | none => set m none
  | some v =>
    let (i, vals) ← set_multiple_header (valueCode set m) hname (Str.buf v)
    let m ← setValues set m vals.reverse
    return (i, m)

/-- `osip_message_parse` (src/osipparser2/osip_message_parse.c:823-898) with `MINISIZE`. -/
def mini_message_parse (sscanf : Str → Option Nat) (sscanfD : Str → Option Int) (signed : Bool) (t : List (Option Nat))
    (buf : List Char) : Option (Int × SipMessage) := do
  let tmp ← skipBlankLines (buf ++ [NUL])
  let tmp ← replace_all_lws tmp
  let (i, start, headers) ← startline_parse sscanf sscanfD tmp
  let m : SipMessage := { start := start }
  if i ≠ 0 then return (i, m)
  let (i, m, body) ← msg_headers_parse (mini_set_multiple sscanf signed t) m headers
  if i ≠ 0 then return (i, m)
  parseRest m (body.getD headers)

/-- `osip_message_parse_sipfrag` (src/osipparser2/osip_message_parse.c:900-904) with `MINISIZE`. -/
def mini_message_parse_sipfrag (sscanf : Str → Option Nat) (sscanfD : Str → Option Int) (signed : Bool) (t : List (Option Nat))
    (buf : List Char) : Option (Int × SipMessage) := do
  let tmp ← skipBlankLines (buf ++ [NUL])
  let tmp ← replace_all_lws tmp
  let (i, start, next) ← startline_parse sscanf sscanfD tmp
  let headers := if i ≠ 0 then tmp else next
  let (i, m, body) ← msg_headers_parse (mini_set_multiple sscanf signed t) { start := start } headers
  if i ≠ 0 then return (i, m)
  parseRest m (body.getD headers)

end Osip
