import Verif.Parse.Ptr
import Verif.Str.PropsQuote
import Verif.Hdr

/-!
# Small header parsers: CSeq, Call-ID and generic parameters

Pointers as in `Verif/Parse/Ptr.lean`. Memory allocation succeeds.
-/

set_option autoImplicit false

namespace Osip

/-- `sprintf (buf + strlen (buf), …)` in a block of `len` bytes: the new string, `none` if it does not fit. -/
def put (len : Nat) (buf s : Str) : Option Str := if (buf ++ s).length < len then some (buf ++ s) else none

/-- `snprintf (buf + strlen (buf), len - strlen (buf), …)` in a block of `len` bytes. -/
def putn (len : Nat) (buf s : Str) : Option Str :=
  if buf.length < len then some (buf ++ s.take (len - buf.length - 1)) else none

/-- `osip_cseq_parse` (src/osipparser2/osip_cseq.c:68-101). -/
def osip_cseq_parse (hvalue : List Char) : Option (Int × CSeq) := do
  match ← cstrchr ' ' hvalue with
  | none => return (OSIP_SYNTAXERROR, {})
  | some method =>
    let s ← cstr hvalue
    let end_ := hvalue.drop s.length
    if pdiff method hvalue + 1 < 2 then return (OSIP_SYNTAXERROR, {})
    let number ← clrncpy hvalue (pdiff method hvalue)
    if pdiff end_ method + 1 < 2 then return (OSIP_SYNTAXERROR, { number := some number })
    let meth ← clrncpy (method.drop 1) (pdiff end_ method)
    return (OSIP_SUCCESS, { number := some number, method := some meth })

/-- `osip_cseq_to_str` (src/osipparser2/osip_cseq.c:141-155): code and string. -/
def osip_cseq_to_str (cseq : Option CSeq) : Option (Int × Option Str) :=
  match cseq with
  | some { number := some number, method := some method } => do
    let len := method.length + number.length + 2
    let s ← putn len [] (number ++ ' ' :: method)
    return (OSIP_SUCCESS, some s)
  | _ => some (OSIP_BADPARAMETER, none)

/-- `osip_call_id_parse` (src/osipparser2/osip_call_id.c:95-125). -/
def osip_call_id_parse (hvalue : List Char) : Option (Int × CallId) := do
  let s ← cstr hvalue
  let end_ := hvalue.drop s.length
  match ← cstrchr '@' hvalue with
  | none =>
    let host := end_
    if pdiff host hvalue + 1 < 2 then return (OSIP_SYNTAXERROR, {})
    let number ← clrncpy hvalue (pdiff host hvalue)
    return (OSIP_SUCCESS, { number := some number })
  | some host =>
    if pdiff end_ host + 1 < 2 then return (OSIP_SYNTAXERROR, {})
    let h ← clrncpy (host.drop 1) (pdiff end_ host - 1)
    if pdiff host hvalue + 1 < 2 then return (OSIP_SYNTAXERROR, { host := some h })
    let number ← clrncpy hvalue (pdiff host hvalue)
    return (OSIP_SUCCESS, { number := some number, host := some h })

/-- `osip_call_id_to_str` (src/osipparser2/osip_call_id.c:130-150). -/
def osip_call_id_to_str (callid : Option CallId) : Option (Int × Option Str) :=
  match callid with
  | some { number := some number, host := none } => do
    let s ← put (number.length + 1) [] number
    return (OSIP_SUCCESS, some s)
  | some { number := some number, host := some host } => do
    let s ← put (number.length + host.length + 2) [] (number ++ '@' :: host)
    return (OSIP_SUCCESS, some s)
  | _ => some (OSIP_BADPARAMETER, none)

/-- `next_separator` (src/osipparser2/osip_uri.c:72-94) with two characters other than NUL. -/
def next_separator (ch : List Char) (find before : Char) : Option (Option (List Char)) := do
  match ← cstrchr find ch with
  | none => return none
  | some ind =>
    match ← cstrchr before ch with
    | none => return some ind
    | some tmp => if pdiff ind tmp < 0 then return some ind else return none

/-- `__osip_quote_find` on a pointer. -/
def cquote_find (p : List Char) : Option (Option (List Char)) := do
  match ← quote_find p with
  | none => return none
  | some i => return some (p.drop i.toNat)

/-- `for (…; *tmp is one of cs; tmp++)`. -/
def skipChars (cs : List Char) : List Char → Option (List Char)
  | [] => none
  | c :: t => if c ∈ cs then skipChars cs t else some (c :: t)

/-- The computation of `equal` and `comma` (src/osipparser2/osip_from.c:521-538 and 582-599). A null pointer is
not greater than any other. -/
def paramSeps (params : List Char) : Option (Option (List Char) × Option (List Char)) := do
  let equal ← next_separator (params.drop 1) '=' ';'
  let comma ← cstrchr ';' (params.drop 1)
  match equal with
  | none => return (equal, comma)
  | some e =>
    let tmp ← skipChars [' '] (e.drop 1)
    if (← deref tmp) = '"' then
      match comma with
      | none => return (equal, comma)
      | some c =>
        if pdiff c tmp > 0 then
          match ← cquote_find (tmp.drop 1) with
          | none => return (equal, none)
          | some endquote => return (equal, ← cstrchr ';' endquote)
        else return (equal, comma)
    else return (equal, comma)

/-- The value of a parameter (src/osipparser2/osip_from.c:546-561 and 614-626): `.error` is
`OSIP_SYNTAXERROR`. -/
def paramValue (equal comma : List Char) : Option (Except Int (Option Str)) := do
  let tmp ← skipChars ['\t', ' '] (equal.drop 1)
  let c ← deref tmp
  if c ≠ ',' ∧ c ≠ NUL then
    if pdiff comma equal < 2 then return .error OSIP_SYNTAXERROR
    let v ← strncpy (equal.drop 1) (pdiff comma equal - 1)
    return .ok (some v)
  else return .ok none

/-- `osip_uri_param_add` (src/osipparser2/osip_uri.c:813-829, with `osip_uri_param_set`, 800-811; also known as
`osip_generic_param_add`): name and value are cleared of blanks in place by `osip_clrspace`, which is used
through its contract `c39_clrspace`. -/
def param_add (l : List Param) (pname : Str) (pvalue : Option Str) : List Param :=
  l ++ [⟨trim pname, pvalue.map trim⟩]

/-- `__osip_generic_param_parseall` (src/osipparser2/osip_from.c:505-650). The first argument bounds the
number of rounds. -/
def parseallLoop : Nat → List Param → List Char → Option (Int × List Param)
  | 0, _, _ => none
  | n + 1, acc, params => do
    let (equal, comma) ← paramSeps params
    match comma with
    | some comma =>
      let pvalue ← (match equal with
        | none => some (.ok none)
        | some e => paramValue e comma)
      let equal := equal.getD comma
      match pvalue with
      | .error i => return (i, acc)
      | .ok pvalue =>
        if pdiff equal params < 2 then return (OSIP_SYNTAXERROR, acc)
        let pname ← strncpy (params.drop 1) (pdiff equal params - 1)
        parseallLoop n (param_add acc pname pvalue) comma
    | none =>
      let s ← cstr params
      let comma := params.drop s.length
      match equal with
      | none =>
        if pdiff comma params < 2 then return (OSIP_SUCCESS, acc)
        let pname ← strncpy (params.drop 1) (pdiff comma params - 1)
        return (OSIP_SUCCESS, param_add acc pname none)
      | some e =>
        match ← paramValue e comma with
        | .error i => return (i, acc)
        | .ok pvalue =>
          if pdiff e params < 2 then return (OSIP_SYNTAXERROR, acc)
          let pname ← strncpy (params.drop 1) (pdiff e params - 1)
          return (OSIP_SUCCESS, param_add acc pname pvalue)

def generic_param_parseall (acc : List Param) (params : List Char) : Option (Int × List Param) :=
  parseallLoop (params.length + 1) acc params

end Osip
