import Verif.Parse.Media
import Verif.Parse.Headers
import Verif.Parse.Case
import Verif.Parse.FixVia

/-!
# Bodies: `src/osipparser2/osip_body.c` and `msg_osip_body_parse`

Pointers as in `Verif/Parse/Ptr.lean`; here the blocks may have NUL bytes inside. Memory allocation succeeds.
-/

set_option autoImplicit false

namespace Osip

/-- `osip_body_t` (include/osipparser2/osip_body.h:40-46); `length` is the length of `body`. -/
structure Body where
  body : List Char := []
  headers : List Header := []
  content_type : Option MediaType := none
  deriving DecidableEq, Repr

/-- `memcpy (…, p, (size_t) n)` into a block with `n` bytes: reading behind the block at `p` is undefined, and so is a negative `n`, which
is a huge `size_t`. -/
def memcpy (p : List Char) (n : Int) : Option (List Char) :=
  if 0 ≤ n ∧ n ≤ p.length then some (p.take n.toNat) else none

/-- `strncmp (p, lit, strlen (lit)) == 0` for a literal. -/
def startsWith : Str → List Char → Option Bool
  | [], _ => some true
  | _ :: _, [] => none
  | c :: lit, d :: t => if c = d then startsWith lit t else some false

/-- `strstr (p, needle)` for a needle that is not empty; `some none` is the null pointer. -/
def cstrstr (needle : Str) : List Char → Option (Option (List Char))
  | [] => none
  | c :: t => if needle.isPrefixOf (c :: t) then some (some (c :: t)) else if c = NUL then some none else cstrstr needle t

/-- The loop of `__osip_find_next_occurence` (src/osipparser2/osip_message_parse.c:261-278) with the number of rounds left;
`some none` is a syntax error. -/
def occurenceLoop (str : Str) (end_of_buf : List Char) : Nat → List Char → Option (Option (List Char))
  | 0, _ => some none
  | n + 1, buf => do
    match ← cstrstr str buf with
    | some q => return some q
    | none =>
      let s ← cstr buf
      let ptr := buf.drop s.length
      if pdiff end_of_buf ptr > 0 then occurenceLoop str end_of_buf n (ptr.drop 1)
      else return none

/-- `__osip_find_next_occurence` (src/osipparser2/osip_message_parse.c:252-279). -/
def find_next_occurence (str : Str) (buf end_of_buf : List Char) : Option (Option (List Char)) :=
  occurenceLoop str end_of_buf 1000 buf

/-- `osip_body_set_contenttype` (src/osipparser2/osip_body.c:134-155). -/
def osip_body_set_contenttype (b : Body) (hvalue : Str) : Option (Int × Body) := do
  let (i, ct) ← osip_content_type_parse (some (hvalue ++ [NUL]))
  if i ≠ 0 then return (i, { b with content_type := none })
  return (OSIP_SUCCESS, { b with content_type := some ct })

/-- A line of `osip_body_parse_header` (src/osipparser2/osip_body.c:248-254). -/
def bodyLine (b : Body) (hname hvalue : Str) : Option (Int × Body) := do
  if (← osip_strncasecmp (hname ++ [NUL]) (Str.buf "content-type".toList) 12) = 0 then osip_body_set_contenttype b hvalue
  else return (OSIP_SUCCESS, { b with headers := b.headers ++ [⟨some hname, some hvalue⟩] })

/-- `osip_body_parse_header` (src/osipparser2/osip_body.c:212-265): code, body and `*next_body`. A comparison with the null pointer stored
for a continued line is taken to be true. -/
def bodyHeaders : Nat → Body → List Char → Option (Int × Body × Option (List Char))
  | 0, _, _ => none
  | n + 1, b, start => do
    let f ← find_next_crlf start 0
    if f = .syntaxError then return (OSIP_SYNTAXERROR, b, none)
    match ← cstrchr ':' start with
    | none => return (OSIP_SYNTAXERROR, b, none)
    | some colon =>
      if pdiff colon start + 1 < 2 then return (OSIP_SYNTAXERROR, b, none)
      let hname ← clrncpy start (pdiff colon start)
      match f with
      | .at k =>
        let m : Int := (k : Int) - 2 - pdiff colon start
        if m < 2 then return (OSIP_SYNTAXERROR, b, none)
        let hvalue ← clrncpy (colon.drop 1) (m - 1)
        let (i, b) ← bodyLine b hname hvalue
        if i ≠ 0 then return (i, b, none)
        let c ← deref (start.drop k)
        if c = CR ∨ c = LF then return (OSIP_SUCCESS, b, some (start.drop k))
        bodyHeaders n b (start.drop k)
      | _ => return (OSIP_SYNTAXERROR, b, none)

/-- `osip_body_parse_mime` (src/osipparser2/osip_body.c:287-333) on a fresh structure. -/
def osip_body_parse_mime (start : List Char) (length : Nat) : Option (Int × Body) := do
  let (i, b, next) ← bodyHeaders (start.length + 1) {} start
  if i ≠ 0 then return (i, b)
  let p ← next
  let p ← (do
    if ← startsWith "\r\n".toList p then return p.drop 2
    else return p.drop 1 : Option (List Char))
  let n : Int := length - pdiff p start
  if n ≤ 0 then return (OSIP_SYNTAXERROR, b)
  let data ← memcpy p n
  return (OSIP_SUCCESS, { b with body := data })

/-- `osip_body_parse` (src/osipparser2/osip_body.c:267-285) on a fresh structure. -/
def osip_body_parse (start : List Char) (length : Nat) : Option (Int × Body) := do
  let data ← memcpy start length
  return (OSIP_SUCCESS, { body := data })

/-- `sep_boundary` (src/osipparser2/osip_message_parse.c:732-745). -/
def sepBoundary (gvalue : Str) : Str :=
  "\n--".toList ++ (if gvalue.head? = some '"' ∧ gvalue.getLast? = some '"' then (gvalue.drop 1).take (gvalue.length - 2) else gvalue)

/-- The part between the boundaries at `s` and `e` (src/osipparser2/osip_message_parse.c:769-779): `start_of_body` and `body_len`. -/
def mimePart (sep : Str) (s e : List Char) : Option (List Char × Int) := do
  let p := s.drop (sep.length + 1)
  let c ← deref p
  let p := if c = '\n' ∨ c = '\r' then p.drop 1 else p
  let before ← deref (s.drop ((pdiff e s).toNat - 1))
  return (p, pdiff e p - if before = '\r' then 1 else 0)

/-- The loop over the parts (src/osipparser2/osip_message_parse.c:754-811). The part is copied into a block of its own. -/
def mimeLoop (sep : Str) (end_of_buf : List Char) : Nat → List Body → List Char → Option (Int × List Body)
  | 0, _, _ => none
  | n + 1, bodies, start => do
    match ← find_next_occurence sep start end_of_buf with
    | none => return (OSIP_SYNTAXERROR, bodies)
    | some s =>
      match ← find_next_occurence sep (s.drop sep.length) end_of_buf with
      | none => return (OSIP_SYNTAXERROR, bodies)
      | some e =>
        let (p, body_len) ← mimePart sep s e
        let tmp ← memcpy p body_len
        let (i, b) ← osip_body_parse_mime (tmp ++ [NUL]) tmp.length
        if i ≠ 0 then return (i, bodies)
        if ← startsWith "--".toList (e.drop sep.length) then return (OSIP_SUCCESS, bodies ++ [b])
        mimeLoop sep end_of_buf n (bodies ++ [b]) e

/-- The body of a message that is not multipart (src/osipparser2/osip_message_parse.c:680-728): code, the new body and the value
of Content-Length afterwards. -/
def plainBody (content_length : Option Str) (start : List Char) (length : Nat) : Option (Int × List Body × Option Str) := do
  let c ← deref start
  if c = NUL then return (OSIP_SYNTAXERROR, [], content_length)
  if c ≠ '\r' ∧ c ≠ '\n' then return (OSIP_SYNTAXERROR, [], content_length)
  let k ← (do
    if c = '\r' then
      if (← deref (start.drop 1)) = '\n' then return 2 else return 1
    else return 1 : Option Nat)
  -- `size_t`
  let length := ((length : Int) - k) % 2 ^ 64
  if length = 0 then return (OSIP_SYNTAXERROR, [], content_length)
  let len : Int := match content_length with
    | some v => osip_atoi (some v) % 2 ^ 64
    | none => length
  let content_length := match content_length with
    | some v => v
    | none => intText (toInt32 length)
  if length < len then return (OSIP_SYNTAXERROR, [], some content_length)
  let tmp ← memcpy (start.drop k) len
  let (i, b) ← osip_body_parse (tmp ++ [NUL]) tmp.length
  if i ≠ 0 then return (i, [], some content_length)
  return (OSIP_SUCCESS, [b], some content_length)

/-- `msg_osip_body_parse` (src/osipparser2/osip_message_parse.c:666-820): code, the new bodies and the value of Content-Length
afterwards. -/
def msg_osip_body_parse (content_type : Option MediaType) (content_length : Option Str) (start : List Char) (length : Nat) :
    Option (Int × List Body × Option Str) :=
  match content_type with
  | some { type := some type, subtype := some _, gen_params := ps } =>
    if strcaseEq type "multipart".toList then
      match paramByName ps "boundary" with
      | none => some (OSIP_UNDEFINED_ERROR, [], content_length)
      | some p =>
        match p.gvalue with
        | none => some (OSIP_SYNTAXERROR, [], content_length)
        | some gvalue => do
          let (i, bodies) ← mimeLoop (sepBoundary gvalue) (start.drop length) (start.length + 1) [] start
          return (i, bodies, content_length)
    else plainBody content_length start length
  | _ => some (OSIP_SUCCESS, [], content_length)

/-- The loop over the headers in `osip_body_to_str` (src/osipparser2/osip_body.c:385-409): code, `length` and the text. -/
def bodyHeadersStr : List Header → Nat → Str → Option (Int × Nat × Str)
  | [], length, buf => some (OSIP_SUCCESS, length, buf)
  | h :: hs, length, buf => do
    let (i, tmp) ← osip_header_to_str (some h)
    if i ≠ 0 then return (i, length, buf)
    let tmp ← tmp
    let length := if length < buf.length + tmp.length + 4 then length + tmp.length + 4 else length
    let buf ← put length buf tmp
    let buf ← put length buf "\r\n".toList
    bodyHeadersStr hs length buf

/-- The end of `osip_body_to_str` (src/osipparser2/osip_body.c:411-440). `memcpy` writes no terminator. -/
def bodyEnd (b : Body) (length : Nat) (buf : Str) : Option (Int × Option (List Char)) := do
  let (length, buf) ← (if b.headers ≠ [] ∨ b.content_type ≠ none then do
      let length := if length < buf.length + 3 then length + 3 + b.body.length else length
      let buf ← put length buf "\r\n".toList
      return (length, buf)
    else return (length, buf) : Option (Nat × Str))
  let length := if length < buf.length + b.body.length + 4 then length + b.body.length + 4 else length
  if buf.length + b.body.length ≤ length then return (OSIP_SUCCESS, some (buf ++ b.body)) else none

/-- `osip_body_to_str` (src/osipparser2/osip_body.c:338-441): code and the bytes. A body whose `body` is a null pointer has no bytes here. -/
def osip_body_to_str (b : Body) : Option (Int × Option (List Char)) := do
  if b.body.length ≤ 0 then return (OSIP_BADPARAMETER, none)
  let length := 15 + b.body.length + b.headers.length * 40
  match b.content_type with
  | none =>
    let (i, length, buf) ← bodyHeadersStr b.headers length []
    if i ≠ 0 then return (i, none)
    bodyEnd b length buf
  | some ct =>
    let buf ← put length [] "content-type: ".toList
    let (i, tmp) ← osip_content_type_to_str (some ct)
    if i ≠ 0 then return (i, none)
    let tmp ← tmp
    let length := if length < buf.length + tmp.length + 4 then length + tmp.length + 4 else length
    let buf ← put length buf tmp
    let buf ← put length buf "\r\n".toList
    let (i, length, buf) ← bodyHeadersStr b.headers length buf
    if i ≠ 0 then return (i, none)
    bodyEnd b length buf

end Osip
