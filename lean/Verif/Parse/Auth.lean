import Verif.Parse.Params
import Verif.Parse.Case

/-!
# WWW-Authenticate, Authorization and Authentication-Info

Pointers as in `Verif/Parse/Ptr.lean`. Memory allocation succeeds. The three structures have one `char *` for each directive; here they
are a function from the name of the directive to the value of the pointer. The three parsing functions repeat the same lines for each
directive; here the directives are a list.
-/

set_option autoImplicit false

namespace Osip

/-- A string in memory of its own. -/
def cbuf (s : Str) : List Char := s ++ [NUL]

/-- The pointers of `osip_www_authenticate_t`, `osip_authorization_t` or `osip_authentication_info_t`. -/
abbrev Fields := Str → Option Str

def Fields.set (F : Fields) (name : Str) (v : Option Str) : Fields := fun n => if n = name then v else F n

/-- From the end of an element to the next one (src/osipparser2/osip_www_authenticate.c:105-122, 130-146 and 189-205): `none` at the end
of the header. -/
def nextElement (tmp : List Char) : Option (Option (List Char)) := do
  let tmp ← skipChars [' ', '\t'] tmp
  let tmp ← skipChars ['\n', '\r'] tmp
  let c ← deref tmp
  if c = NUL then return none
  if c ≠ '\t' ∧ c ≠ ' ' then return some tmp
  let tmp ← skipChars [' ', '\t'] tmp
  if (← deref tmp) = NUL then return none
  return some tmp

/-- `while (' ' == *(hack - 1)) hack--` (src/osipparser2/osip_www_authenticate.c:87-88), `hack` counted from `str`. Reading before `str`
is undefined. -/
def backSpaces (str : List Char) : Nat → Option Nat
  | 0 => none
  | h + 1 =>
    match str[h]? with
    | none => none
    | some c => if c = ' ' then backSpaces str h else some (h + 1)

/-- The quoted string (src/osipparser2/osip_www_authenticate.c:94-146). -/
def quotedValue (str : List Char) : Option (Int × Option Str × Option (List Char)) := do
  match ← cquote_find str with
  | none => return (OSIP_SYNTAXERROR, none, none)
  | some quote1 =>
    match ← cquote_find (quote1.drop 1) with
    | none => return (OSIP_SYNTAXERROR, none, none)
    | some quote2 =>
      if pdiff quote2 quote1 = 1 then
        let next ← nextElement (quote2.drop 1)
        return (OSIP_SUCCESS, none, next)
      let v ← strncpy quote1 (pdiff quote2 quote1 + 1)
      let next ← nextElement (quote2.drop 1)
      return (OSIP_SUCCESS, some v, next)

/-- `__osip_quoted_string_set` (src/osipparser2/osip_www_authenticate.c:65-152): the code, `*result` and `*next`. -/
def quoted_string_set (name : Str) (str : List Char) (result : Option Str) : Option (Int × Option Str × Option (List Char)) :=
  match result with
  | some v => some (OSIP_SUCCESS, some v, some str)
  | none => do
    let str ← skipChars [' ', '\t', ','] str
    if (← osip_strncasecmp (cbuf name) str name.length) = 0 then
      match ← cstrchr '=' str with
      | none => return (OSIP_SYNTAXERROR, none, none)
      | some hack =>
        let h ← backSpaces str (pdiff hack str).toNat
        if h ≠ name.length then return (OSIP_SUCCESS, none, some str)
        quotedValue str
    else return (OSIP_SUCCESS, none, some str)

/-- The token (src/osipparser2/osip_www_authenticate.c:179-205). -/
def tokenValue (beg str : List Char) : Option (Int × Option Str × Option (List Char)) := do
  let end_ ← (do match ← cstrchr ',' str with
    | some e => return e
    | none => return str.drop (← cstr str).length)
  if pdiff end_ beg < 2 then return (OSIP_SYNTAXERROR, none, none)
  let v ← clrncpy (beg.drop 1) (pdiff end_ beg - 1)
  let next ← nextElement (if (← deref end_) = NUL then end_ else end_.drop 1)
  return (OSIP_SUCCESS, some v, next)

/-- `__osip_token_set` (src/osipparser2/osip_www_authenticate.c:154-212). -/
def token_set (name : Str) (str : List Char) (result : Option Str) : Option (Int × Option Str × Option (List Char)) :=
  match result with
  | some v => some (OSIP_SUCCESS, some v, some str)
  | none => do
    match ← cstrchr '=' str with
    | none => return (OSIP_SYNTAXERROR, none, none)
    | some beg =>
      if (← cstr str).length < 6 then return (OSIP_SUCCESS, none, none)
      let str ← skipChars [' ', '\t', ','] str
      if (← osip_strncasecmp (cbuf name) str name.length) = 0 then tokenValue beg str
      else return (OSIP_SUCCESS, none, some str)

/-- Which of the two functions reads a directive. -/
inductive DirKind
  | quoted | token
  deriving DecidableEq, Repr

/-- The end of a round: the function returns, or `space` and whether `parse_ok` is not 0. -/
inductive Round
  | ret (i : Int)
  | go (space : List Char) (ok : Bool)
  deriving DecidableEq, Repr

/-- One attempt: `i = set (name, space, &field, &next)`. -/
def authSet (k : DirKind) (name : Str) (space : List Char) (v : Option Str) : Option (Int × Option Str × Option (List Char)) :=
  match k with
  | .quoted => quoted_string_set name space v
  | .token => token_set name space v

/-- One round of the attempts (src/osipparser2/osip_www_authenticate.c:244-338, src/osipparser2/osip_authorization.c:94-237,
src/osipparser2/osip_authentication_info.c:98-187). -/
def authRound : List (DirKind × Str) → Fields → List Char → Bool → Option (Fields × Round)
  | [], F, space, ok => some (F, .go space ok)
  | (k, name) :: T, F, space, ok => do
    let (i, v, next) ← authSet k name space (F name)
    let F := F.set name v
    if i ≠ 0 then return (F, .ret i)
    match next with
    | none => return (F, .ret OSIP_SUCCESS)
    | some next => authRound T F next (ok || decide (pdiff next space ≠ 0))

/-- An element that was not understood (src/osipparser2/osip_www_authenticate.c:339-365). -/
def authBypass (space : List Char) : Option Round := do
  if (← cstr space).length < 1 then return .ret OSIP_SUCCESS
  match ← cstrchr ',' (space.drop 1) with
  | none => return .ret OSIP_SUCCESS
  | some tmp =>
    match ← cquote_find space with
    | none => return .go tmp false
    | some quote1 =>
      if pdiff tmp quote1 > 0 then
        match ← cquote_find (quote1.drop 1) with
        | none => return .ret OSIP_SYNTAXERROR
        | some quote2 =>
          if pdiff quote2 tmp > 0 then
            match ← cstrchr ',' quote2 with
            | none => return .ret OSIP_SUCCESS
            | some space => return .go space false
          else return .go tmp false
      else return .go tmp false

/-- The loop `for (;;)`; the number bounds the rounds. -/
def authLoop (T : List (DirKind × Str)) : Nat → Fields → List Char → Option (Int × Fields)
  | 0, _, _ => none
  | n + 1, F, space => do
    let (F, rd) ← authRound T F space false
    match rd with
    | .ret i => return (i, F)
    | .go space true => authLoop T n F space
    | .go space false =>
      match ← authBypass space with
      | .ret i => return (i, F)
      | .go space _ => authLoop T n F space

/-- The attempts of `osip_www_authenticate_parse` (src/osipparser2/osip_www_authenticate.c:244-338). -/
def wwwTable : List (DirKind × Str) :=
  [(.quoted, "realm".toList), (.quoted, "domain".toList), (.quoted, "nonce".toList), (.quoted, "opaque".toList),
   (.token, "stale".toList), (.token, "algorithm".toList), (.quoted, "qop".toList), (.token, "version".toList),
   (.quoted, "targetname".toList), (.quoted, "gssapi-data".toList)]

/-- The attempts of `osip_authorization_parse` (src/osipparser2/osip_authorization.c:94-237). -/
def authTable : List (DirKind × Str) :=
  [(.quoted, "username".toList), (.quoted, "realm".toList), (.quoted, "nonce".toList), (.quoted, "uri".toList),
   (.quoted, "response".toList), (.quoted, "digest".toList), (.token, "algorithm".toList), (.quoted, "cnonce".toList),
   (.quoted, "opaque".toList), (.token, "qop".toList), (.token, "nc".toList), (.token, "version".toList),
   (.quoted, "targetname".toList), (.quoted, "gssapi-data".toList), (.quoted, "crand".toList), (.quoted, "cnum".toList)]

/-- The attempts of `osip_authentication_info_parse` (src/osipparser2/osip_authentication_info.c:98-187). -/
def infoTable : List (DirKind × Str) :=
  [(.quoted, "nextnonce".toList), (.quoted, "cnonce".toList), (.quoted, "rspauth".toList), (.token, "nc".toList),
   (.token, "qop".toList), (.quoted, "snum".toList), (.quoted, "srand".toList), (.quoted, "targetname".toList),
   (.quoted, "realm".toList), (.quoted, "opaque".toList)]

/-- `osip_www_authenticate_parse` (src/osipparser2/osip_www_authenticate.c:222-367) with `wwwTable` and `osip_authorization_parse`
(src/osipparser2/osip_authorization.c:74-274) with `authTable`, on a fresh structure: code, `auth_type` and the other fields. -/
def credentials_parse (T : List (DirKind × Str)) (hvalue : List Char) : Option (Int × Option Str × Fields) := do
  match ← cstrchr ' ' hvalue with
  | none => return (OSIP_SYNTAXERROR, none, fun _ => none)
  | some space =>
    if pdiff space hvalue < 1 then return (OSIP_SYNTAXERROR, none, fun _ => none)
    let t ← strncpy hvalue (pdiff space hvalue)
    let (i, F) ← authLoop T (space.length + 1) (fun _ => none) space
    return (i, some t, F)

def osip_www_authenticate_parse : List Char → Option (Int × Option Str × Fields) := credentials_parse wwwTable
def osip_authorization_parse : List Char → Option (Int × Option Str × Fields) := credentials_parse authTable

/-- `osip_authentication_info_parse` (src/osipparser2/osip_authentication_info.c:76-218). -/
def osip_authentication_info_parse (hvalue : List Char) : Option (Int × Option Str × Fields) := do
  let space ← cstrchr ' ' hvalue
  let hack ← cstrchr '=' hvalue
  match space, hack with
  | some s, some h =>
    if pdiff h s > 0 then
      let t ← strncpy hvalue (pdiff s hvalue)
      let (i, F) ← authLoop infoTable (s.length + 1) (fun _ => none) s
      return (i, some t, F)
    else
      let (i, F) ← authLoop infoTable (hvalue.length + 1) (fun _ => none) hvalue
      return (i, none, F)
  | _, _ =>
    let (i, F) ← authLoop infoTable (hvalue.length + 1) (fun _ => none) hvalue
    return (i, none, F)

/-- The bytes counted for the fields that are set. -/
def countFields (F : Fields) (l : List (Str × Nat)) : Nat :=
  (l.map fun x => match F x.1 with | none => 0 | some v => v.length + x.2).sum

/-- The bytes counted by `osip_www_authenticate_to_str` (src/osipparser2/osip_www_authenticate.c:540-565). -/
def wwwCounts : List (Str × Nat) :=
  [("realm".toList, 7), ("nonce".toList, 8), ("domain".toList, 9), ("opaque".toList, 9), ("stale".toList, 8), ("algorithm".toList, 12),
   ("qop".toList, 6), ("version".toList, 10), ("targetname".toList, 13), ("gssapi-data".toList, 14)]

/-- The texts of `osip_www_authenticate_to_str` (src/osipparser2/osip_www_authenticate.c:573-612). -/
def wwwTexts : List (Str × Str) :=
  [("realm".toList, " realm=".toList), ("domain".toList, ", domain=".toList), ("nonce".toList, ", nonce=".toList),
   ("opaque".toList, ", opaque=".toList), ("stale".toList, ", stale=".toList), ("algorithm".toList, ", algorithm=".toList),
   ("qop".toList, ", qop=".toList), ("version".toList, ", version=".toList), ("targetname".toList, ", targetname=".toList),
   ("gssapi-data".toList, ", gssapi-data=".toList)]

/-- `if (field != NULL) { append text; append field }` for each field, in a block of `len` bytes. -/
def wwwAppend (F : Fields) (len : Nat) : List (Str × Str) → Str → Option Str
  | [], buf => some buf
  | (n, t) :: l, buf =>
    match F n with
    | none => wwwAppend F len l buf
    | some v => do
      let buf ← put len buf (t ++ v)
      wwwAppend F len l buf

/-- `osip_www_authenticate_to_str` (src/osipparser2/osip_www_authenticate.c:530-620). -/
def osip_www_authenticate_to_str (auth_type : Option Str) (F : Fields) : Option (Int × Option Str) :=
  match auth_type with
  | none => some (OSIP_BADPARAMETER, none)
  | some t => do
    let len := t.length + 1 + 2 + countFields F wwwCounts
    let buf ← put len [] t
    let buf ← wwwAppend F len wwwTexts buf
    let buf := if F "realm".toList = none then (if buf[t.length]? = some ',' then buf.set t.length ' ' else buf) else buf
    return (OSIP_SUCCESS, some buf)

/-- The bytes counted by `osip_authorization_to_str` (src/osipparser2/osip_authorization.c:526-559). -/
def authCounts : List (Str × Nat) :=
  [("username".toList, 10), ("realm".toList, 8), ("nonce".toList, 8), ("uri".toList, 6), ("response".toList, 11), ("digest".toList, 9),
   ("algorithm".toList, 12), ("cnonce".toList, 9), ("opaque".toList, 9), ("nc".toList, 5), ("qop".toList, 6), ("version".toList, 10),
   ("targetname".toList, 13), ("gssapi-data".toList, 14), ("crand".toList, 8), ("cnum".toList, 7)]

/-- The texts of `osip_authorization_to_str` (src/osipparser2/osip_authorization.c:568-687). -/
def authTexts : List (Str × Str) :=
  [("username".toList, " username=".toList), ("realm".toList, " realm=".toList), ("nonce".toList, " nonce=".toList),
   ("uri".toList, " uri=".toList), ("response".toList, " response=".toList), ("digest".toList, " digest=".toList),
   ("algorithm".toList, " algorithm=".toList), ("cnonce".toList, " cnonce=".toList), ("opaque".toList, " opaque=".toList),
   ("qop".toList, " qop=".toList), ("nc".toList, " nc=".toList), ("version".toList, " version=".toList),
   ("targetname".toList, " targetname=".toList), ("gssapi-data".toList, " gssapi-data=".toList), ("crand".toList, " crand=".toList),
   ("cnum".toList, " cnum=".toList)]

/-- The same with a separator before every field but the first; `first` says that nothing was written yet. -/
def sepAppend (F : Fields) (len : Nat) (sep : Str) : List (Str × Str) → Bool → Str → Option Str
  | [], _, buf => some buf
  | (n, t) :: l, first, buf =>
    match F n with
    | none => sepAppend F len sep l first buf
    | some v => do
      let buf ← put len buf ((if first then [] else sep) ++ (t ++ v))
      sepAppend F len sep l false buf

/-- `osip_authorization_to_str` (src/osipparser2/osip_authorization.c:505-689). -/
def osip_authorization_to_str (auth_type : Option Str) (F : Fields) : Option (Int × Option Str) :=
  match auth_type with
  | none => some (OSIP_BADPARAMETER, none)
  | some t => do
    let len := t.length + 1 + 2 + countFields F authCounts
    let buf ← put len [] t
    let buf ← sepAppend F len ",".toList authTexts true buf
    return (OSIP_SUCCESS, some buf)

/-- The bytes counted by `osip_authentication_info_to_str` (src/osipparser2/osip_authentication_info.c:396-415). -/
def infoCounts : List (Str × Nat) :=
  [("nextnonce".toList, 11), ("rspauth".toList, 10), ("cnonce".toList, 9), ("nc".toList, 5), ("qop".toList, 6), ("snum".toList, 7),
   ("srand".toList, 8), ("targetname".toList, 13), ("realm".toList, 8), ("opaque".toList, 8)]

/-- The texts of `osip_authentication_info_to_str` (src/osipparser2/osip_authentication_info.c:432-503). -/
def infoTexts : List (Str × Str) :=
  [("qop".toList, "qop=".toList), ("nextnonce".toList, "nextnonce=".toList), ("rspauth".toList, "rspauth=".toList),
   ("cnonce".toList, "cnonce=".toList), ("nc".toList, "nc=".toList), ("snum".toList, "snum=".toList), ("srand".toList, "srand=".toList),
   ("targetname".toList, "targetname=".toList), ("realm".toList, "realm=".toList), ("opaque".toList, "opaque=".toList)]

/-- `osip_authentication_info_to_str` (src/osipparser2/osip_authentication_info.c:383-505). Every text is longer than 0, so `tmp != start`
says that something was written. -/
def osip_authentication_info_to_str (auth_type : Option Str) (F : Fields) : Option (Int × Option Str) := do
  let len := (match auth_type with | none => 0 | some t => t.length + 1) + countFields F infoCounts
  if len = 0 then return (OSIP_BADPARAMETER, none)
  let buf ← (match auth_type with | none => some [] | some t => put len [] (t ++ " ".toList))
  let buf ← sepAppend F len ", ".toList infoTexts true buf
  return (OSIP_SUCCESS, some buf)

end Osip
