import Verif.Parse.Params
import Verif.Parse.Case
import Verif.Str.Escape

/-!
# URIs: `src/osipparser2/osip_uri.c`

Pointers as in `Verif/Parse/Ptr.lean`; `sscanf` and `fresh` as in `Verif/Str/Escape.lean`. Memory allocation
succeeds.
-/

set_option autoImplicit false

namespace Osip

/-- `__osip_uri_unescape` on a fresh block which holds the string: the string in it afterwards. -/
def unesc (sscanf : Str → Option Nat) (s : Str) : Option Str := (uri_unescape sscanf (Str.buf s)).map Buf.str

/-- The string made by `__osip_uri_escape_nonascii_and_nondef`. -/
def esc (fresh : Nat → Buf) (dfn s : Str) : Option Str := (uri_escape s dfn fresh).map Buf.str

/-- `osip_is_alpha` (src/osipparser2/osip_uri.c:25-27). -/
def isAlpha (c : Char) : Bool := ('a' ≤ c && c ≤ 'z') || ('A' ≤ c && c ≤ 'Z')

/-- `osip_uri_parse_headers` (src/osipparser2/osip_uri.c:351-424): code and headers. The first argument bounds
the number of rounds. -/
def uriHeadersLoop (sscanf : Str → Option Nat) : Nat → List Param → List Char → Option (Int × List Param)
  | 0, _, _ => none
  | n + 1, acc, headers => do
    let equal ← cstrchr '=' headers
    let _and ← cstrchr '&' (headers.drop 1)
    match equal with
    | none => return (OSIP_SYNTAXERROR, acc)
    | some equal =>
      let hname ← strncpy (headers.drop 1) (pdiff equal headers - 1)
      let hname ← unesc sscanf hname
      match _and with
      | some _and =>
        if pdiff _and equal < 2 then return (OSIP_SYNTAXERROR, acc)
        let hvalue ← strncpy (equal.drop 1) (pdiff _and equal - 1)
        let hvalue ← unesc sscanf hvalue
        uriHeadersLoop sscanf n (param_add acc hname (some hvalue)) _and
      | none =>
        let s ← cstr headers
        let rest := (s.length : Int) - pdiff equal headers
        if rest + 1 < 2 then return (OSIP_SYNTAXERROR, acc)
        let hvalue ← strncpy (equal.drop 1) rest
        let hvalue ← unesc sscanf hvalue
        return (OSIP_SUCCESS, param_add acc hname (some hvalue))

def uri_parse_headers (sscanf : Str → Option Nat) (acc : List Param) (headers : List Char) : Option (Int × List Param) :=
  uriHeadersLoop sscanf headers.length acc headers

/-- One parameter (src/osipparser2/osip_uri.c:442-481 and 488-518): it starts at `params` and ends at `comma`.
`.error` is the code returned. -/
def uriParam (sscanf : Str → Option Nat) (params : List Char) (equal : Option (List Char)) (comma : List Char)
    (acc : List Param) : Option (Except Int (List Param)) :=
  match equal with
  | none => do
    if pdiff comma params < 2 then return .error OSIP_SYNTAXERROR
    let pname ← strncpy (params.drop 1) (pdiff comma params - 1)
    let pname ← unesc sscanf pname
    return .ok (param_add acc pname none)
  | some equal => do
    if pdiff comma equal < 2 then return .error OSIP_SYNTAXERROR
    let pvalue ← strncpy (equal.drop 1) (pdiff comma equal - 1)
    let pvalue ← unesc sscanf pvalue
    if pdiff equal params < 2 then return .error OSIP_SYNTAXERROR
    let pname ← strncpy (params.drop 1) (pdiff equal params - 1)
    let pname ← unesc sscanf pname
    return .ok (param_add acc pname (some pvalue))

/-- `osip_uri_parse_params` (src/osipparser2/osip_uri.c:426-518). -/
def uriParamsLoop (sscanf : Str → Option Nat) : Nat → List Param → List Char → Option (Int × List Param)
  | 0, _, _ => none
  | n + 1, acc, params => do
    let equal ← next_separator (params.drop 1) '=' ';'
    match ← cstrchr ';' (params.drop 1) with
    | some comma =>
      match ← uriParam sscanf params equal comma acc with
      | .error i => return (i, acc)
      | .ok acc => uriParamsLoop sscanf n acc comma
    | none =>
      let s ← cstr params
      match ← uriParam sscanf params equal (params.drop s.length) acc with
      | .error i => return (i, acc)
      | .ok acc => return (OSIP_SUCCESS, acc)

def uri_parse_params (sscanf : Str → Option Nat) (acc : List Param) (params : List Char) : Option (Int × List Param) :=
  uriParamsLoop sscanf params.length acc params

/-- The password (src/osipparser2/osip_uri.c:180-194): `host` points to the `@`, the result is the pointer
`password`. -/
def uriPassword (sscanf : Str → Option Nat) (url : Uri) (username host : List Char) :
    Option (Except (Int × Uri) (Uri × List Char)) := do
  match ← next_separator (username.drop 1) ':' '@' with
  | none => return .ok (url, host)
  | some password =>
    if pdiff host password < 2 then return .error (OSIP_SYNTAXERROR, url)
    let p ← strncpy (password.drop 1) (pdiff host password - 1)
    let p ← unesc sscanf p
    return .ok ({ url with password := some p }, password)

/-- User and password (src/osipparser2/osip_uri.c:171-204): the result is the pointer `host`, to the character
before the host. -/
def uriUser (sscanf : Str → Option Nat) (url : Uri) (buf username : List Char) :
    Option (Except (Int × Uri) (Uri × List Char)) := do
  match ← cstrchr '@' buf with
  | none => return .ok (url, username)
  | some host =>
    if (← deref (username.drop 1)) = '@' then return .ok (url, username.drop 1)
    match ← uriPassword sscanf url username host with
    | .error x => return .error x
    | .ok (url, password) =>
      if pdiff password username < 2 then return .error (OSIP_SYNTAXERROR, url)
      let u ← strncpy (username.drop 1) (pdiff password username - 1)
      let u ← unesc sscanf u
      return .ok ({ url with username := some u }, host)

/-- The headers, if there is a question mark (src/osipparser2/osip_uri.c:209-212). -/
def uriHeaders (sscanf : Str → Option Nat) (acc : List Param) : Option (List Char) → Option (List Param)
  | none => some acc
  | some h => (uri_parse_headers sscanf acc h).map (·.2)

/-- Headers and parameters (src/osipparser2/osip_uri.c:207-237): the result is the pointer `params`. The
codes of the two functions are ignored. -/
def uriTail (sscanf : Str → Option Nat) (url : Uri) (host : List Char) :
    Option (Except (Int × Uri) (Uri × List Char)) := do
  let s ← cstr host
  let q ← cstrchr '?' host
  let hs ← uriHeaders sscanf url.url_headers q
  let url := { url with url_headers := hs }
  let headers := q.getD (host.drop s.length)
  match ← cstrchr ';' host with
  | none => return .ok (url, headers)
  | some params =>
    if pdiff headers params + 1 < 2 then return .error (OSIP_SYNTAXERROR, url)
    let tmpbuf ← strncpy params (pdiff headers params)
    let (_, ps) ← uri_parse_params sscanf url.url_params (Str.buf tmpbuf)
    return .ok ({ url with url_params := ps }, params)

/-- `while (p > host && *p does not satisfy stop) p--`; positions are counted from `host`. -/
def backScan (host : List Char) (stop : Char → Bool) : Nat → Option Nat
  | 0 => some 0
  | i + 1 => do
    let c ← host[i + 1]?
    if stop c then return i + 1
    backScan host stop i

/-- `while (host < port && *host != '[') host++` for `n` more positions. -/
def findOpen : List Char → Nat → Option Nat
  | _, 0 => some 0
  | [], _ + 1 => none
  | c :: t, n + 1 => if c = '[' then some 0 else (findOpen t n).map (· + 1)

/-- The port (src/osipparser2/osip_uri.c:239-255): the result is the position `port`. -/
def uriPort (url : Uri) (host params : List Char) : Option (Except (Int × Uri) (Uri × Nat)) := do
  let k := (pdiff params host).toNat
  if k = 0 then none
  let port ← backScan host (fun c => c == ']' || c == ':') (k - 1)
  let c ← host[port]?
  if c = ':' then
    if port = 0 then return .ok (url, k)
    if k - port < 2 ∨ k - port > 8 then return .error (OSIP_SYNTAXERROR, url)
    let p ← clrncpy (host.drop (port + 1)) ((k : Int) - port - 1)
    return .ok ({ url with port := some p }, port)
  else return .ok (url, k)

/-- The host (src/osipparser2/osip_uri.c:256-274). -/
def uriHost (url : Uri) (host : List Char) (port : Nat) : Option (Int × Uri) := do
  let tmp ← backScan host (fun c => c == ']') port
  let c ← host[tmp]?
  if c = ']' then
    let h ← findOpen host tmp
    if h ≥ tmp then return (OSIP_SYNTAXERROR, url)
    if tmp - h < 2 then return (OSIP_SYNTAXERROR, url)
    let x ← clrncpy (host.drop (h + 1)) ((tmp : Int) - h - 1)
    return (OSIP_SUCCESS, { url with host := some x })
  else
    if port < 2 then return (OSIP_SYNTAXERROR, url)
    let x ← clrncpy (host.drop 1) ((port : Int) - 1)
    return (OSIP_SUCCESS, { url with host := some x })

/-- The part of `osip_uri_parse` for sip and sips URIs (src/osipparser2/osip_uri.c:151-274): `username` points to the
colon after the scheme. -/
def uriSip (sscanf : Str → Option Nat) (url : Uri) (buf username : List Char) : Option (Int × Uri) := do
  match ← uriUser sscanf url buf username with
  | .error x => return x
  | .ok (url, host) =>
    match ← uriTail sscanf url host with
    | .error x => return x
    | .ok (url, params) =>
      match ← uriPort url host params with
      | .error x => return x
      | .ok (url, port) => uriHost url host port

/-- `osip_uri_parse` (src/osipparser2/osip_uri.c:101-275) on a fresh structure. -/
def osip_uri_parse (sscanf : Str → Option Nat) (buf : List Char) : Option (Int × Uri) := do
  if (← deref buf) = NUL then return (OSIP_BADPARAMETER, {})
  match ← cstrchr ':' buf with
  | none => return (OSIP_SYNTAXERROR, {})
  | some tmp =>
    if pdiff tmp buf < 2 then return (OSIP_SYNTAXERROR, {})
    if !(buf.take (pdiff tmp buf).toNat).all isAlpha then return (OSIP_SYNTAXERROR, {})
    let scheme ← strncpy buf (pdiff tmp buf)
    let url : Uri := { scheme := some scheme }
    if (← cstrchr ' ' (Str.buf scheme)).isSome then return (OSIP_SYNTAXERROR, url)
    let r1 ← osip_strncasecmp (Str.buf scheme) (Str.buf "sip".toList) 3
    let r2 ← osip_strncasecmp (Str.buf scheme) (Str.buf "sips".toList) 4
    if scheme.length < 3 ∨ (r1 ≠ 0 ∧ r2 ≠ 0) then
      let s ← cstr (tmp.drop 1)
      if s.length < 2 then return (OSIP_SYNTAXERROR, url)
      return (OSIP_SUCCESS, { url with string := some s })
    else uriSip sscanf url buf tmp

/-- The parameters (src/osipparser2/osip_uri.c:603-661): the string and the size of its block. -/
def uriParamsStr (fresh : Nat → Buf) : List Param → Nat → Str → Option (Str × Nat)
  | [], len, buf => some (buf, len)
  | p :: ps, len, buf => do
    if (← osip_strcasecmp (Str.buf p.gname) (Str.buf "x-obr".toList)) = 0 ∨
        (← osip_strcasecmp (Str.buf p.gname) (Str.buf "x-obp".toList)) = 0 then
      uriParamsStr fresh ps len buf
    else
      let tmp1 ← esc fresh uri_param_def p.gname
      match p.gvalue with
      | none =>
        let len := len + (tmp1.length + 2)
        let buf ← put len buf (';' :: tmp1)
        uriParamsStr fresh ps len buf
      | some v =>
        let tmp2 ← esc fresh uri_param_def v
        let len := len + (tmp1.length + tmp2.length + 3)
        let buf ← put len buf (';' :: tmp1 ++ '=' :: tmp2)
        uriParamsStr fresh ps len buf

/-- The headers (src/osipparser2/osip_uri.c:663-703); `pos` is the position of the iterator. A header without
value leads to a null pointer. -/
def uriHeadersStr (fresh : Nat → Buf) : List Param → Nat → Nat → Str → Option Str
  | [], _, _, buf => some buf
  | h :: hs, pos, len, buf => do
    let tmp1 ← esc fresh header_param_def h.gname
    let v ← h.gvalue
    let tmp2 ← esc fresh header_param_def v
    let len := len + (tmp1.length + tmp2.length + 4)
    let buf ← putn len buf ((if pos = 0 then '?' else '&') :: tmp1 ++ '=' :: tmp2)
    uriHeadersStr fresh hs (pos + 1) len buf

/-- Scheme, user, password, host and port (src/osipparser2/osip_uri.c:553-600). -/
def uriHeadStr (fresh : Nat → Buf) (url : Uri) (scheme host : Str) : Option (Str × Nat) := do
  let len := scheme.length + 1 + host.length + 5
  let len := len + (match url.username with | none => 0 | some x => x.length * 3 + 1)
  let len := len + (match url.password with | none => 0 | some x => x.length * 3 + 1)
  let len := len + (match url.port with | none => 0 | some x => x.length + 3)
  let buf ← put len [] (scheme ++ [':'])
  let buf ← (match url.username with
    | none => some buf
    | some x => do put len buf (← esc fresh userinfo_def x))
  let buf ← (match url.password, url.username with
    | some x, some _ => do put len buf (':' :: (← esc fresh password_def x))
    | _, _ => some buf)
  let buf ← (match url.username with
    | none => some buf
    | some _ => put len buf ['@'])
  let buf ← put len buf (if host.contains ':' then '[' :: host ++ [']'] else host)
  let buf ← (match url.port with
    | none => some buf
    | some x => put len buf (':' :: x))
  return (buf, len)

/-- `osip_uri_to_str` (src/osipparser2/osip_uri.c:520-709). -/
def osip_uri_to_str (fresh : Nat → Buf) (url : Option Uri) : Option (Int × Option Str) :=
  match url with
  | none => some (OSIP_BADPARAMETER, none)
  | some url =>
    match url.string, url.scheme, url.host with
    | none, _, none => some (OSIP_BADPARAMETER, none)
    | some _, none, _ => some (OSIP_BADPARAMETER, none)
    | some string, some scheme, _ => do
      let len := scheme.length + string.length + 3
      let buf ← put len [] (scheme ++ [':'])
      let buf ← put len buf string
      return (OSIP_SUCCESS, some buf)
    | none, scheme, some host => do
      let (buf, len) ← uriHeadStr fresh url (scheme.getD "sip".toList) host
      let (buf, len) ← uriParamsStr fresh url.url_params len buf
      let buf ← uriHeadersStr fresh url.url_headers 0 len buf
      return (OSIP_SUCCESS, some buf)

/-- `osip_uri_to_str_canonical` (src/osipparser2/osip_uri.c:1035-1054): the whole text is unescaped in place. -/
def osip_uri_to_str_canonical (fresh : Nat → Buf) (sscanf : Str → Option Nat) (url : Option Uri) : Option (Int × Option Str) := do
  let (result, dest) ← osip_uri_to_str fresh url
  if result = 0 then
    let dest ← dest
    let dest ← unesc sscanf dest
    return (result, some dest)
  return (result, dest)

end Osip
