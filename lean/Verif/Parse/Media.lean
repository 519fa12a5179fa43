import Verif.Parse.Params

/-!
# Content-Type, Accept, Accept-Encoding, Call-Info, plain values and other headers

Pointers as in `Verif/Parse/Ptr.lean`. Memory allocation succeeds.
-/

set_option autoImplicit false

namespace Osip

/-- `osip_content_type_t` (include/osipparser2/headers/osip_content_type.h:44-53), also `osip_accept_t`. -/
structure MediaType where
  type : Option Str := none
  subtype : Option Str := none
  gen_params : List Param := []
  deriving DecidableEq, Repr

/-- `osip_accept_encoding_t` (include/osipparser2/headers/osip_accept_encoding.h), also `osip_accept_language_t`, `osip_call_info_t`,
`osip_alert_info_t`, `osip_error_info_t` and `osip_content_disposition_t`. -/
structure ListEntry where
  element : Option Str := none
  gen_params : List Param := []
  deriving DecidableEq, Repr

/-- The parameters from `params` on, if there are some. -/
def optParams (acc : List Param) : Option (List Char) → Option (Int × List Param)
  | none => some (OSIP_SUCCESS, acc)
  | some g => generic_param_parseall acc g

/-- The second half of `osip_content_type_parse` (src/osipparser2/osip_content_type.c:121-135): `params` is the end of the subtype. -/
def contentTypeNames (ps : List Param) (hvalue subtype params : List Char) : Option (Int × MediaType) := do
  if pdiff subtype hvalue + 1 < 2 then return (OSIP_SYNTAXERROR, { gen_params := ps })
  let t ← clrncpy hvalue (pdiff subtype hvalue)
  if pdiff params subtype < 2 then return (OSIP_SYNTAXERROR, { type := some t, gen_params := ps })
  let s ← clrncpy (subtype.drop 1) (pdiff params subtype - 1)
  return (OSIP_SUCCESS, { type := some t, subtype := some s, gen_params := ps })

/-- `osip_content_type_parse` (src/osipparser2/osip_content_type.c:86-136) on a fresh structure; `osip_accept_parse` is the same function
(include/osipparser2/headers/osip_accept.h:64). -/
def osip_content_type_parse (hvalue : Option (List Char)) : Option (Int × MediaType) :=
  match hvalue with
  | none => some (OSIP_SUCCESS, {})
  | some hvalue => do
    if (← deref hvalue) = NUL then return (OSIP_SUCCESS, {})
    let subtype ← cstrchr '/' hvalue
    let params ← cstrchr ';' hvalue
    match subtype with
    | none => return (OSIP_SYNTAXERROR, {})
    | some subtype =>
      let (i, ps) ← optParams [] params
      if i ≠ 0 then return (i, { gen_params := ps })
      match params with
      | some params => contentTypeNames ps hvalue subtype params
      | none =>
        let s ← cstr subtype
        contentTypeNames ps hvalue subtype (subtype.drop s.length)

/-- The loop over the parameters (src/osipparser2/osip_content_type.c:166-186, src/osipparser2/osip_accept.c:109-128). -/
def mediaParamsStr : List Param → Nat → Str → Option (Int × Option Str)
  | [], _, buf => some (OSIP_SUCCESS, some buf)
  | p :: ps, len, buf =>
    match p.gvalue with
    | none => some (OSIP_SYNTAXERROR, none)
    | some v => do
      let tmp_len := buf.length + 4 + p.gname.length + v.length + 1
      let len := if len < tmp_len then tmp_len else len
      let buf ← putn len buf (';' :: ' ' :: p.gname ++ '=' :: v)
      mediaParamsStr ps len buf

/-- `osip_content_type_to_str` (src/osipparser2/osip_content_type.c:142-189). -/
def osip_content_type_to_str (ct : Option MediaType) : Option (Int × Option Str) :=
  match ct with
  | some { type := some t, subtype := some s, gen_params := ps } => do
    let len := t.length + s.length + 4 + 10 * ps.length
    let buf ← put len [] (t ++ '/' :: s)
    mediaParamsStr ps len buf
  | _ => some (OSIP_BADPARAMETER, none)

/-- `osip_accept_to_str` (src/osipparser2/osip_accept.c:69-132). A null pointer in `%s` is undefined. -/
def osip_accept_to_str (accept : Option MediaType) : Option (Int × Option Str) :=
  match accept with
  | none => some (OSIP_BADPARAMETER, none)
  | some a =>
    let len := (a.type.getD []).length + (a.subtype.getD []).length
    if len = 0 then some (OSIP_SUCCESS, some [' '])
    else do
      let t ← a.type
      let s ← a.subtype
      let len := len + 4 + 10 * a.gen_params.length
      let buf ← put len [] (t ++ '/' :: s)
      mediaParamsStr a.gen_params len buf

/-- The end of `osip_accept_encoding_parse` (src/osipparser2/osip_accept_encoding.c:96-103) and `osip_call_info_parse`
(src/osipparser2/osip_call_info.c:100-107). -/
def entryElement (ps : List Param) (hvalue params : List Char) : Option (Int × ListEntry) := do
  if pdiff params hvalue + 1 < 2 then return (OSIP_SYNTAXERROR, { gen_params := ps })
  let e ← clrncpy hvalue (pdiff params hvalue)
  return (OSIP_SUCCESS, { element := some e, gen_params := ps })

/-- The common part of both from the result of `strchr (…, ';')` on. -/
def entryRest (hvalue : List Char) (params : Option (List Char)) : Option (Int × ListEntry) := do
  let (i, ps) ← optParams [] params
  if i ≠ 0 then return (i, { gen_params := ps })
  match params with
  | some params => entryElement ps hvalue params
  | none =>
    let s ← cstr hvalue
    entryElement ps hvalue (hvalue.drop s.length)

/-- `osip_accept_encoding_parse` (src/osipparser2/osip_accept_encoding.c:80-104) on a fresh structure; also
`osip_accept_language_parse` (include/osipparser2/headers/osip_accept_language.h:58). `osip_content_disposition_parse`
(src/osipparser2/osip_content_disposition.c:29-53) has the same statements. -/
def osip_accept_encoding_parse (hvalue : List Char) : Option (Int × ListEntry) := do
  let params ← cstrchr ';' hvalue
  entryRest hvalue params

/-- `osip_call_info_parse` (src/osipparser2/osip_call_info.c:76-108) on a fresh structure; also `osip_alert_info_parse` and
`osip_error_info_parse`. -/
def osip_call_info_parse (hvalue : List Char) : Option (Int × ListEntry) := do
  match ← cstrchr '<' hvalue with
  | none => return (OSIP_SYNTAXERROR, {})
  | some p =>
    match ← cstrchr '>' (p.drop 1) with
    | none => return (OSIP_SYNTAXERROR, {})
    | some p =>
      let params ← cstrchr ';' (p.drop 1)
      entryRest hvalue params

/-- The loop over the parameters (src/osipparser2/osip_accept_encoding.c:126-144; src/osipparser2/osip_call_info.c:133-150 with
`sprintf`). -/
def entryParamsStr : List Param → Nat → Str → Option Str
  | [], _, buf => some buf
  | p :: ps, len, buf => do
    let len := len + (match p.gvalue with
      | none => p.gname.length + 2
      | some v => p.gname.length + v.length + 3)
    let buf ← put len buf (match p.gvalue with
      | none => ';' :: p.gname
      | some v => ';' :: p.gname ++ '=' :: v)
    entryParamsStr ps len buf

/-- `osip_accept_encoding_to_str` (src/osipparser2/osip_accept_encoding.c:109-148) and `osip_call_info_to_str`
(src/osipparser2/osip_call_info.c:113-154). The `snprintf` of the former is modelled as `sprintf`, which is undefined where
the text would be cut. -/
def osip_entry_to_str (entry : Option ListEntry) : Option (Int × Option Str) :=
  match entry with
  | some { element := some e, gen_params := ps } => do
    let len := e.length + 2
    let buf ← put len [] e
    let buf ← entryParamsStr ps len buf
    return (OSIP_SUCCESS, some buf)
  | _ => some (OSIP_BADPARAMETER, none)

/-- `osip_content_length_parse` (src/osipparser2/osip_content_length.c:64-79); also for Allow, Content-Encoding and Mime-Version
(include/osipparser2/headers/osip_allow.h:58, osip_content_encoding.h:59, osip_mime_version.h:59). -/
def osip_content_length_parse (hvalue : Option (List Char)) : Option (Int × Option Str) :=
  match hvalue with
  | none => some (OSIP_BADPARAMETER, none)
  | some hvalue => do
    let s ← cstr hvalue
    if s.length + 1 < 2 then return (OSIP_SYNTAXERROR, none)
    let v ← strncpy hvalue s.length
    return (OSIP_SUCCESS, some v)

/-- `osip_content_length_to_str` (src/osipparser2/osip_content_length.c:95-104) of a structure with the field `value`;
`osip_strdup (NULL)` is the null pointer (src/osipparser2/osip_port.c). -/
def osip_content_length_to_str (cl : Option (Option Str)) : Option (Int × Option Str) :=
  match cl with
  | none => some (OSIP_BADPARAMETER, none)
  | some none => some (OSIP_NOMEM, none)
  | some (some v) => some (OSIP_SUCCESS, some v)

/-- `osip_header_t` (include/osipparser2/headers/osip_header.h). -/
structure Header where
  hname : Option Str
  hvalue : Option Str
  deriving DecidableEq, Repr

/-- `osip_message_set_header` (src/osipparser2/osip_header.c:32-66): the new entry of the list. -/
def osip_message_set_header (hname : Option (List Char)) (hvalue : Option (List Char)) : Option (Int × Option Header) :=
  match hname with
  | none => some (OSIP_BADPARAMETER, none)
  | some hname => do
    let s ← cstr hname
    let n ← clrncpy hname s.length
    match hvalue with
    | none => return (OSIP_SUCCESS, some ⟨some n, none⟩)
    | some hvalue =>
      let s ← cstr hvalue
      let v ← clrncpy hvalue s.length
      return (OSIP_SUCCESS, some ⟨some n, some v⟩)

/-- `osip_header_to_str` (src/osipparser2/osip_header.c:228-254). -/
def osip_header_to_str (header : Option Header) : Option (Int × Option Str) :=
  match header with
  | some { hname := some hname, hvalue := hvalue } => do
    let s ← putn (hname.length + (hvalue.getD []).length + 3) [] (hname ++ ':' :: ' ' :: hvalue.getD [])
    match s with
    | [] => return (OSIP_SUCCESS, some [])
    | c :: t => return (OSIP_SUCCESS, some ((if 'a' ≤ c ∧ c ≤ 'z' then Char.ofNat (c.toNat - 32) else c) :: t))
  | _ => some (OSIP_BADPARAMETER, none)

end Osip
