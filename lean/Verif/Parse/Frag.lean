import Verif.Parse.Message

/-!
# Reading fragments of messages (`message/sipfrag`)
-/

set_option autoImplicit false

namespace Osip

/-- `osip_message_parse_sipfrag` (src/osipparser2/osip_message_parse.c:900-904): `_osip_message_parse` (823-891) with `sipfrag`. A start
line which cannot be read does not end the call: `next_header_index` then still points to the start of the text (44, 189), and the message
keeps what `__osip_message_startline_parseresp` has set before it failed. -/
def osip_message_parse_sipfrag (sscanf : Str → Option Nat) (sscanfD : Str → Option Int) (signed : Bool) (t : List (Option Nat))
    (buf : List Char) : Option (Int × SipMessage) := do
  let tmp ← skipBlankLines (buf ++ [NUL])
  let tmp ← replace_all_lws tmp
  let (i, start, next) ← startline_parse sscanf sscanfD tmp
  let headers := if i ≠ 0 then tmp else next
  let (i, m, body) ← msg_headers_parse (message_set_multiple sscanf signed t) { start := start } headers
  if i ≠ 0 then return (i, m)
  parseRest m (body.getD headers)

end Osip
