import Verif.Parse.Ptr
import Verif.Parse.Case

/-!
# Splitting of header values: `osip_message_set_multiple_header`
(src/osipparser2/osip_message_parse.c:425-570)
-/

set_option autoImplicit false

namespace Osip

/-- The header names whose value is never split (src/osipparser2/osip_message_parse.c:450-473). -/
def singleHeaders : List String :=
  ["date", "t", "to", "f", "from", "i", "call-id", "cseq", "s", "subject", "expires", "server", "user-agent",
   "www-authenticate", "authentication-info", "proxy-authenticate", "proxy-authorization",
   "proxy-authentication-info", "organization", "authorization", "r", "refer-to", "b", "referred-by"]

/-- `osip_strncasecmp (p, lit, n) == 0` for a string literal. -/
def caseStarts (p : List Char) (lit : String) : Option Bool := do
  let r ← osip_strncasecmp p (Str.buf lit.toList) lit.toList.length
  return r == 0

/-- The condition at '<' (src/osipparser2/osip_message_parse.c:506-512); `p` points to the '<'. -/
def opensUri (p : List Char) : Option Bool := do
  let q := p.drop 1
  let known ← (do
    if ← caseStarts q "sip:" then return true
    if ← caseStarts q "sips:" then return true
    if ← caseStarts q "http:" then return true
    if ← caseStarts q "https:" then return true
    caseStarts q "tel:" : Option Bool)
  if known then
    let gt ← cstrchr '>' p
    return gt.isSome
  else return false

/-- The loop (src/osipparser2/osip_message_parse.c:490-568). `set` gives the return code of
`osip_message_set__header` for a value, it may depend on the values stored before; the result has the
return code and the values handed over, the last one first. -/
def splitLoop (set : List Str → Str → Int) (beg : List Char) : List Char → Bool → Bool → List Str →
    Option (Int × List Str)
  | [], _, _, _ => none
  | c :: t, inquotes, inuri, acc =>
    if c = '"' then
      -- `for (i = 0, p = ptr; p >= beg && *p == '\\'; p--, i++);`
      let i := ((c :: (beg.take (beg.length - (c :: t).length)).reverse).takeWhile (· = '\\')).length
      splitLoop set beg t (if i % 2 = 0 then !inquotes else inquotes) inuri acc
    else if c = '<' then
      if !inquotes && !inuri then
        match opensUri (c :: t) with
        | none => none
        | some o => splitLoop set beg t inquotes o acc
      else splitLoop set beg t inquotes inuri acc
    else if c = '>' then splitLoop set beg t inquotes (if !inquotes then false else inuri) acc
    else if c = NUL ∨ c = ',' then
      let inquotes := if c = NUL then false else inquotes
      let inuri := if c = NUL then false else inuri
      if !inquotes && !inuri then
        match deref beg with
        | none => none
        | some b0 =>
          if b0 = NUL then some (0, acc)
          else if pdiff (c :: t) beg + 1 < 2 then splitLoop set t t inquotes inuri acc
          else
            match clrncpy beg (pdiff (c :: t) beg) with
            | none => none
            | some avalue =>
              let i := set acc avalue
              if i ≠ 0 then some (i, avalue :: acc)
              else if c = NUL then some (0, avalue :: acc)
              else splitLoop set t t inquotes inuri (avalue :: acc)
      else splitLoop set beg t inquotes inuri acc
    else splitLoop set beg t inquotes inuri acc

/-- `osip_message_set_multiple_header` for the lower-case name `hname` and the value at `hvalue`; the result
has the values handed to `osip_message_set__header`, the last one first. -/
def set_multiple_header (set : List Str → Str → Int) (hname : Str) (hvalue : List Char) :
    Option (Int × List Str) := do
  let comma ← cstrchr ',' hvalue
  if comma.isNone ∨ hname ∈ singleHeaders.map String.toList then
    let v ← cstr hvalue
    let i := set [] v
    return (if i ≠ 0 then i else 0, [v])
  else splitLoop set hvalue hvalue false false []

end Osip
