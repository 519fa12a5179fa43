import Verif.Parse.Case
import Verif.Parse.ToStr

/-!
# Changing a message: `src/osipparser2/osip_header.c`, `osip_via.c`, `osip_body.c`, `osip_message.c`

Functions which an application calls on a message that it has read or built. The message pointer is not null and allocation
succeeds. Strings are without a terminator inside; the block of a string holds one behind it.
-/

set_option autoImplicit false

namespace Osip

/-- `(osip_header_t *) osip_list_get (&sip->headers, i)` (src/osipparser2/osip_list.c:178-200); `none` is the null pointer. -/
def headerAt (hs : List Header) (i : Int) : Option Header := if i < 0 ∨ i ≥ hs.length then none else hs[i.toNat]?

/-- The loop of `osip_message_header_get_byname` (src/osipparser2/osip_header.c:190-198) with a bound for the number of rounds:
code and `*dest`. The null pointer, as element or as name, is read. -/
def bynameLoop (hs : List Header) (hname : Str) : Nat → Int → Option (Int × Option Header)
  | 0, _ => some (OSIP_UNDEFINED_ERROR, none)
  | n + 1, i =>
    if hs.length > i then do
      let tmp ← headerAt hs i
      let s ← tmp.hname
      let k ← osip_strcasecmp (Str.buf s) (Str.buf hname)
      if k = 0 then return (i, some tmp)
      bynameLoop hs hname n (i + 1)
    else some (OSIP_UNDEFINED_ERROR, none)

/-- `osip_message_header_get_byname` (src/osipparser2/osip_header.c:180-201). -/
def osip_message_header_get_byname (m : SipMessage) (hname : Str) (pos : Int) : Option (Int × Option Header) :=
  if (m.headers.length : Int) ≤ pos then some (OSIP_UNDEFINED_ERROR, none)
  else bynameLoop m.headers hname ((m.headers.length : Int) - pos).toNat pos

/-- `osip_message_get_header` (src/osipparser2/osip_header.c:165-173). -/
def osip_message_get_header (m : SipMessage) (pos : Int) : Int × Option Header :=
  if (m.headers.length : Int) ≤ pos then (OSIP_UNDEFINED_ERROR, none) else (pos, headerAt m.headers pos)

/-- `osip_message_set_header` (src/osipparser2/osip_header.c:32-66) on a message. -/
def message_add_header (m : SipMessage) (hname : Option Str) (hvalue : Option Str) : Option (Int × SipMessage) := do
  let (i, h) ← osip_message_set_header (hname.map Str.buf) (hvalue.map Str.buf)
  if i ≠ 0 then return (i, m)
  let h ← h
  return (OSIP_SUCCESS, { m with headers := m.headers ++ [h], cached := none })

/-- `osip_message_set_topheader` (src/osipparser2/osip_header.c:126-158): as above but the new header is the first one. -/
def osip_message_set_topheader (m : SipMessage) (hname : Option Str) (hvalue : Option Str) : Option (Int × SipMessage) := do
  let (i, h) ← osip_message_set_header (hname.map Str.buf) (hvalue.map Str.buf)
  if i ≠ 0 then return (i, m)
  let h ← h
  return (OSIP_SUCCESS, { m with headers := h :: m.headers, cached := none })

/-- `osip_message_replace_header` (src/osipparser2/osip_header.c:73-115). -/
def osip_message_replace_header (m : SipMessage) (hname : Option Str) (hvalue : Option Str) : Option (Int × SipMessage) :=
  match hname with
  | none => some (OSIP_BADPARAMETER, m)
  | some hname => do
    let (oldpos, _) ← osip_message_header_get_byname m hname 0
    let (i, h) ← osip_message_set_header (some (Str.buf hname)) (hvalue.map Str.buf)
    if i ≠ 0 then return (i, m)
    let h ← h
    let hs := if oldpos ≠ -1 then m.headers.eraseIdx oldpos.toNat else m.headers
    return (OSIP_SUCCESS, { m with headers := hs ++ [h], cached := none })

/-- `osip_message_append_via` (src/osipparser2/osip_via.c:58-74): the value becomes the first Via. A null pointer is read. -/
def osip_message_append_via (m : SipMessage) (hvalue : Option Str) : Option (Int × SipMessage) := do
  let v ← hvalue
  let (i, x) ← osip_via_parse (Str.buf v)
  if i ≠ 0 then return (i, m)
  return (OSIP_SUCCESS, { m with hdr := fun j => if j = .via then .via x :: m.hdr .via else m.hdr j, cached := none })

/-- `osip_message_set_body` and `osip_message_set_body_mime` (src/osipparser2/osip_body.c:57-73, 195-214). -/
def osip_message_set_body (mime : Bool) (m : SipMessage) (buf : List Char) (length : Nat) : Option (Int × SipMessage) := do
  let (i, b) ← (if mime then osip_body_parse_mime buf length else osip_body_parse buf length)
  if i ≠ 0 then return (i, m)
  return (OSIP_SUCCESS, { m with bodies := m.bodies ++ [b], cached := none })

/-- A call that changes or writes a message. -/
inductive Edit
  /-- One of the setters of the headers that have a type. -/
  | typed (k : Setter) (hvalue : Option Str)
  | header (hname hvalue : Option Str)
  | top (hname hvalue : Option Str)
  | replace (hname hvalue : Option Str)
  | firstVia (hvalue : Option Str)
  | body (mime : Bool) (buf : List Char) (length : Nat)
  /-- `osip_message_set_method`, `_status_code`, `_version`, `_reason_phrase` and `_uri` (src/osipparser2/osip_message.c:87-115);
  `message_property` stays what it is. -/
  | method (v : Option Str)
  | status (v : Int)
  | version (v : Option Str)
  | reason (v : Option Str)
  | uri (v : Option Uri)
  /-- `osip_message_force_update` (src/osipparser2/osip_message_to_str.c:295-302). -/
  | update
  /-- `osip_message_to_str` and `osip_message_to_str_sipfrag`; the text is not looked at. -/
  | write (sipfrag : Bool)

/-- The call on a message: code and message. -/
def Edit.run (fresh : Nat → Buf) (sscanf : Str → Option Nat) : Edit → SipMessage → Option (Int × SipMessage)
  | .typed k v, m => callSetter sscanf k m v
  | .header n v, m => message_add_header m n v
  | .top n v, m => osip_message_set_topheader m n v
  | .replace n v, m => osip_message_replace_header m n v
  | .firstVia v, m => osip_message_append_via m v
  | .body mime buf length, m => osip_message_set_body mime m buf length
  | .method v, m => some (0, { m with start := { m.start with sip_method := v } })
  | .status v, m => some (0, { m with start := { m.start with status_code := v } })
  | .version v, m => some (0, { m with start := { m.start with sip_version := v } })
  | .reason v, m => some (0, { m with start := { m.start with reason_phrase := v } })
  | .uri v, m => some (0, { m with start := { m.start with req_uri := v } })
  | .update, m => some (OSIP_SUCCESS, { m with cached := none })
  | .write sipfrag, m => (osip_message_to_str fresh sipfrag m).map fun r => (r.1, r.2.1)

/-- Calls one after the other; their codes are ignored. -/
def runEdits (fresh : Nat → Buf) (sscanf : Str → Option Nat) : List Edit → SipMessage → Option SipMessage
  | [], m => some m
  | e :: es, m => (e.run fresh sscanf m).bind fun r => runEdits fresh sscanf es r.2

end Osip
