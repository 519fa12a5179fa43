import Verif.Parse.Uri
import Verif.Parse.Lines

/-!
# Start lines: `src/osipparser2/osip_message_parse.c`, `src/osipparser2/osip_message_to_str.c`

Pointers as in `Verif/Parse/Ptr.lean`. Memory allocation succeeds. `sscanf` is the conversion `%x` of
`Verif/Str/Escape.lean`, `sscanfD` the conversion `%d` (`none` if there is no number).
-/

set_option autoImplicit false

namespace Osip

/-- The fields of `osip_message_t` for the start line (include/osipparser2/osip_message.h:56-61). -/
structure StartLine where
  sip_version : Option Str := none
  req_uri : Option Uri := none
  sip_method : Option Str := none
  status_code : Int := 0
  reason_phrase : Option Str := none
  deriving DecidableEq, Repr

/-- `strncmp (p, lit, strlen (lit)) == 0` for a literal. -/
def hasPrefix : Str → List Char → Option Bool
  | [], _ => some true
  | _ :: _, [] => none
  | c :: cs, d :: ds => if c ≠ d then some false else hasPrefix cs ds

/-- `p[0] == 0 || … || p[n - 1] == 0`. -/
def nulWithin : Nat → List Char → Option Bool
  | 0, _ => some false
  | _ + 1, [] => none
  | n + 1, c :: t => if c = NUL then some true else nulWithin n t

/-- The loop over the version (src/osipparser2/osip_message_parse.c:119-147); `some none` for a syntax error. -/
def skipVersion : List Char → Option (Option (List Char))
  | [] => none
  | c :: t =>
    if c = CR ∨ c = LF then some (some (c :: t))
    else if ('0' ≤ c ∧ c ≤ '9') ∨ c = '.' then skipVersion t
    else some none

/-- The loop over the reason phrase (src/osipparser2/osip_message_parse.c:214-221). -/
def skipReason : List Char → Option (Option (List Char))
  | [] => none
  | c :: t =>
    if c = CR ∨ c = LF then some (some (c :: t))
    else if c = NUL then some none
    else skipReason t

/-- The start of the next line (src/osipparser2/osip_message_parse.c:173-176, 231-234); `hp` points to the end of the line. -/
def nextLine (hp : List Char) : Option (List Char) := do
  let p := hp.drop 1
  if (← deref p) ≠ NUL ∧ (← deref hp) = CR ∧ (← deref p) = LF then return p.drop 1
  return p

/-- The version in a request line (src/osipparser2/osip_message_parse.c:97-178); `p1` points to the space before it.
Method and URI are freed on failure. -/
def startReqVersion (dest : StartLine) (p1 : List Char) : Option (Int × StartLine × List Char) := do
  let fail := (OSIP_SYNTAXERROR, ({} : StartLine), ([] : List Char))
  let hp := p1.drop 1
  if ← nulWithin 7 hp then return fail
  let c0 ← deref hp
  let c1 ← deref (hp.drop 1)
  let c2 ← deref (hp.drop 2)
  let c3 ← deref (hp.drop 3)
  if (c0 ≠ 'S' ∧ c0 ≠ 's') ∨ (c1 ≠ 'I' ∧ c1 ≠ 'i') ∨ (c2 ≠ 'P' ∧ c2 ≠ 'p') ∨ c3 ≠ '/' then return fail
  match ← skipVersion (hp.drop 4) with
  | none => return fail
  | some hp =>
    if pdiff hp p1 < 2 then return fail
    let v ← strncpy (p1.drop 1) (pdiff hp p1 - 1)
    let headers ← nextLine hp
    return (OSIP_SUCCESS, { dest with sip_version := some v }, headers)

/-- `__osip_message_startline_parsereq` (src/osipparser2/osip_message_parse.c:31-179) on a fresh message. -/
def startline_parsereq (sscanf : Str → Option Nat) (buf : List Char) : Option (Int × StartLine × List Char) := do
  let fail := (OSIP_SYNTAXERROR, ({} : StartLine), ([] : List Char))
  match ← cstrchr ' ' buf with
  | none => return fail
  | some p2 =>
    if ← nulWithin 2 (p2.drop 1) then return fail
    if pdiff p2 buf = 0 then return fail
    let m ← strncpy buf (pdiff p2 buf)
    match ← cstrchr ' ' (p2.drop 2) with
    | none => return fail
    | some p1 =>
      if pdiff p1 p2 < 2 then return fail
      let requesturi ← clrncpy (p2.drop 1) (pdiff p1 p2 - 1)
      let (i, u) ← osip_uri_parse sscanf (Str.buf requesturi)
      if i ≠ 0 then return fail
      startReqVersion { sip_method := some m, req_uri := some u } p1

/-- `__osip_message_startline_parseresp` (src/osipparser2/osip_message_parse.c:181-237) on a fresh message. -/
def startline_parseresp (sscanfD : Str → Option Int) (buf : List Char) : Option (Int × StartLine × List Char) := do
  match ← cstrchr ' ' buf with
  | none => return (OSIP_SYNTAXERROR, {}, [])
  | some statuscode =>
    let v ← strncpy buf (pdiff statuscode buf)
    match ← cstrchr ' ' (statuscode.drop 1) with
    | none => return (OSIP_SYNTAXERROR, {}, [])
    | some reasonphrase =>
      let dest : StartLine := { sip_version := some v }
      match sscanfD (← cstr (statuscode.drop 1)) with
      | none => return (OSIP_SYNTAXERROR, dest, [])
      | some code =>
        let dest := { dest with status_code := code }
        if code = 0 then return (OSIP_SYNTAXERROR, dest, [])
        match ← skipReason reasonphrase with
        | none => return (OSIP_SYNTAXERROR, dest, [])
        | some hp =>
          let reason ← strncpy (reasonphrase.drop 1) (pdiff hp reasonphrase - 1)
          let headers ← nextLine hp
          return (OSIP_SUCCESS, { dest with reason_phrase := some reason }, headers)

/-- `__osip_message_startline_parse` (src/osipparser2/osip_message_parse.c:239-247): return code, message and the
pointer to the headers (meaningful on success only). -/
def startline_parse (sscanf : Str → Option Nat) (sscanfD : Str → Option Int) (buf : List Char) :
    Option (Int × StartLine × List Char) := do
  if ← hasPrefix "SIP/".toList buf then startline_parseresp sscanfD buf else startline_parsereq sscanf buf

/-- The version which is written (src/osipparser2/osip_message_to_str.c:49-52, 86-89; `osip_protocol_version` is
src/osipparser2/osip_message.c:27). -/
def startVersion (sip : StartLine) : Str := sip.sip_version.getD "SIP/2.0".toList

/-- `__osip_message_startline_to_strreq` (src/osipparser2/osip_message_to_str.c:33-71). -/
def startline_to_strreq (fresh : Nat → Buf) (sip : StartLine) : Option (Int × Option Str) :=
  match sip.req_uri, sip.sip_method with
  | some u, some m => do
    match ← osip_uri_to_str fresh (some u) with
    | (i, none) => return (i, none)
    | (i, some rquri) =>
      if i ≠ 0 then return (i, none)
      let v := startVersion sip
      let len := m.length + rquri.length + v.length + 3
      let buf ← put len [] m
      let buf ← put len buf (' ' :: rquri)
      let buf ← put len buf (' ' :: v)
      return (OSIP_SUCCESS, some buf)
  | _, _ => some (OSIP_BADPARAMETER, none)

/-- `__osip_message_startline_to_strresp` (src/osipparser2/osip_message_to_str.c:73-107). The copy of 3 bytes from
the 5 bytes of `status_code` is outside the model for other lengths. -/
def startline_to_strresp (sip : StartLine) : Option (Int × Option Str) :=
  match sip.reason_phrase with
  | none => some (OSIP_BADPARAMETER, none)
  | some reason =>
    if sip.status_code < 100 ∨ sip.status_code > 699 then some (OSIP_BADPARAMETER, none)
    else do
      let v := startVersion sip
      let status_code := Nat.toDigits 10 sip.status_code.toNat
      let len := v.length + 3 + reason.length + 4
      let buf ← put len [] v
      let buf ← (if status_code.length = 3 then put len buf (' ' :: status_code) else none)
      let buf ← put len buf (' ' :: reason)
      return (OSIP_SUCCESS, some buf)

/-- `__osip_message_startline_to_str` (src/osipparser2/osip_message_to_str.c:109-120). -/
def startline_to_str (fresh : Nat → Buf) (sip : StartLine) : Option (Int × Option Str) :=
  if sip.sip_method ≠ none then startline_to_strreq fresh sip
  else if sip.status_code ≠ 0 then startline_to_strresp sip
  else some (OSIP_BADPARAMETER, none)

end Osip
