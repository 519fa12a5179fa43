import Verif.Parse.Uri

/-!
# From, To, Contact, Route and Record-Route: `src/osipparser2/osip_from.c`

Pointers as in `Verif/Parse/Ptr.lean`. Memory allocation succeeds.
-/

set_option autoImplicit false

namespace Osip

/-- The characters of the loop over a display name without quotes (src/osipparser2/osip_from.c:182-205). -/
def isNameChar (c : Char) : Bool :=
  c == ' ' || isAlpha c || ('0' ≤ c && c ≤ '9') || "-.!%*_+`'~".toList.contains c

/-- That loop. -/
def skipName : List Char → Option (List Char)
  | [] => none
  | c :: t => if isNameChar c then skipName t else some (c :: t)

/-- The parameters, if there are some (src/osipparser2/osip_from.c:264-269). -/
def fromGen (acc : List Param) : Option (List Char) → Option (Int × List Param)
  | none => some (OSIP_SUCCESS, acc)
  | some g => generic_param_parseall acc g

/-- URI and parameters (src/osipparser2/osip_from.c:264-287); `url` points to the start of the URI, `n` is `url_end - url + 1`. -/
def fromRest (sscanf : Str → Option Nat) (frm : From) (url : List Char) (n : Int) (gen_params : Option (List Char)) :
    Option (Int × From) := do
  let (i, ps) ← fromGen frm.gen_params gen_params
  let frm := { frm with gen_params := ps }
  if i ≠ 0 then return (i, frm)
  if n + 1 < 7 then return (OSIP_SYNTAXERROR, frm)
  let tmp ← strncpy url n
  let (i, u) ← osip_uri_parse sscanf (Str.buf tmp)
  return (i, { frm with url := some u })

/-- The ends of the URI (src/osipparser2/osip_from.c:237-262). -/
def fromUrl (sscanf : Str → Option Nat) (frm : From) (url : List Char) : Option (Int × From) := do
  if (← deref url) = '<' then
    match ← cstrchr '>' (url.drop 1) with
    | none => return (OSIP_SYNTAXERROR, frm)
    | some url_end =>
      let gen_params ← cstrchr ';' (url.drop (pdiff url_end url - 1).toNat)
      fromRest sscanf frm (url.drop 1) (pdiff url_end (url.drop 1)) gen_params
  else
    match ← cstrchr ';' url with
    | some gen_params => fromRest sscanf frm url (pdiff gen_params url) (some gen_params)
    | none =>
      let s ← cstr url
      fromRest sscanf frm url (s.length + 1) none

/-- A header with a display name in quotes (src/osipparser2/osip_from.c:147-178); `displayname` points to the quote. -/
def fromQuoted (sscanf : Str → Option Nat) (displayname : List Char) : Option (Int × From) := do
  match ← cquote_find (displayname.drop 1) with
  | none => return (OSIP_SYNTAXERROR, {})
  | some second =>
    let d ← strncpy displayname (pdiff second displayname + 1)
    let frm : From := { displayname := some d }
    let ptr ← skipChars [' '] (second.drop 1)
    if (← deref ptr) ≠ '<' then return (OSIP_SYNTAXERROR, frm)
    if (← deref (ptr.drop 1)) = NUL then return (OSIP_SYNTAXERROR, frm)
    fromUrl sscanf frm ptr

/-- `osip_from_parse` (src/osipparser2/osip_from.c:101-288) on a fresh structure. -/
def osip_from_parse (sscanf : Str → Option Nat) (hvalue : List Char) : Option (Int × From) := do
  let beg ← skipChars [' '] hvalue
  let c ← deref beg
  if c = NUL then return (OSIP_SUCCESS, {})
  if c = '"' then fromQuoted sscanf beg
  else
    let ptr ← skipName beg
    let d ← deref ptr
    if d = NUL then return (OSIP_SYNTAXERROR, {})
    if d = '<' then
      if (← deref (ptr.drop 1)) = NUL then return (OSIP_SYNTAXERROR, {})
      if pdiff ptr beg > 0 then
        let n ← clrncpy hvalue (pdiff ptr beg)
        fromUrl sscanf { displayname := some n } ptr
      else fromUrl sscanf {} ptr
    else fromUrl sscanf {} beg

/-- The loop over the parameters (src/osipparser2/osip_from.c:328-350): the string and the size of its block. -/
def fromParamsStr : List Param → Nat → Str → Option Str
  | [], _, buf => some buf
  | p :: ps, len, buf => do
    let len := len + (match p.gvalue with
      | none => p.gname.length + 2
      | some v => p.gname.length + v.length + 3)
    let buf ← putn len buf (match p.gvalue with
      | none => ';' :: p.gname
      | some v => ';' :: p.gname ++ '=' :: v)
    fromParamsStr ps len buf

/-- `osip_from_to_str` (src/osipparser2/osip_from.c:294-353). -/
def osip_from_to_str (fresh : Nat → Buf) (frm : Option From) : Option (Int × Option Str) :=
  match frm with
  | none => some (OSIP_BADPARAMETER, none)
  | some frm =>
    match frm.url with
    | none => some (OSIP_BADPARAMETER, none)
    | some u => do
      match ← osip_uri_to_str fresh (some u) with
      | (i, none) => return (i, none)
      | (i, some url) =>
        if i ≠ 0 then return (i, none)
        let len := (match frm.displayname with
          | none => url.length + 5
          | some d => url.length + d.length + 5)
        let buf ← put len [] (match frm.displayname with
          | none => '<' :: url ++ ['>']
          | some d => d ++ ' ' :: '<' :: url ++ ['>'])
        let buf ← fromParamsStr frm.gen_params len buf
        return (OSIP_SUCCESS, some buf)

/-- `osip_record_route_to_str` (src/osipparser2/osip_record_route.c:88-145) has the same statements; `osip_route_to_str`
(src/osipparser2/osip_route.c:91-97) and `osip_to_to_str` (src/osipparser2/osip_to.c:82-86) are calls. -/
def osip_record_route_to_str := osip_from_to_str

/-- `osip_contact_parse` (src/osipparser2/osip_contact.c:55-69) on a fresh structure. -/
def osip_contact_parse (sscanf : Str → Option Nat) (hvalue : List Char) : Option (Int × From) := do
  if (← deref hvalue) = '*' then
    let s ← cstr hvalue
    return (OSIP_SUCCESS, { displayname := some s })
  else osip_from_parse sscanf hvalue

/-- `osip_contact_to_str` (src/osipparser2/osip_contact.c:101-115). -/
def osip_contact_to_str (fresh : Nat → Buf) (contact : Option From) : Option (Int × Option Str) :=
  match contact with
  | none => some (OSIP_BADPARAMETER, none)
  | some c =>
    match c.displayname with
    | some ('*' :: _) => some (OSIP_SUCCESS, some ['*'])
    | _ => osip_from_to_str fresh (some c)

end Osip
