import Verif.Str.Buf

/-!
# Escaping of URI components: `src/osipparser2/osip_uri.c`

Allocation succeeds; the contents of fresh memory is a parameter. `sscanf (p, "%02X", &hex)` is a
parameter as well: it maps the string at `p` to the value read, if any. Its result is only assumed to
be right for two hexadecimal digits; on anything else (blanks, signs, `0x`, one digit) the theorems
hold whatever it returns.
-/

set_option autoImplicit false

namespace Osip

/-- `osip_is_alphanum` (src/osipparser2/osip_uri.c:905-908). -/
def isAlphanum (c : Char) : Bool :=
  ('a' ≤ c && c ≤ 'z') || ('A' ≤ c && c ≤ 'Z') || ('0' ≤ c && c ≤ '9')

/-- `userinfo_def` (src/osipparser2/osip_uri.c:900, 967). -/
def userinfo_def : Str := "-_.!~*'()&=+$,;?/".toList
/-- `password_def` (src/osipparser2/osip_uri.c:901, 975). -/
def password_def : Str := "-_.!~*'()&=+$,".toList
/-- `uri_param_def` (src/osipparser2/osip_uri.c:902, 982). -/
def uri_param_def : Str := "-_.!~*'()[]/:&+$".toList
/-- `header_param_def` (src/osipparser2/osip_uri.c:903, 989). -/
def header_param_def : Str := "-_.!~*'()[]/?:+$".toList

/-- One hexadecimal digit as printed by `%X`. -/
def hexDigit (n : Nat) : Char := if n < 10 then Char.ofNat (48 + n) else Char.ofNat (55 + n)

/-- `sprintf (p, "%%%02X", in)`: the four bytes written for an `unsigned char`. -/
def sprintfHex (c : Char) : List Char := ['%', hexDigit (c.toNat / 16), hexDigit (c.toNat % 16), NUL]

/-- `osip_realloc`: the bytes of the old block followed by those of `fresh`. -/
def Buf.realloc (b : Buf) (n : Nat) (fresh : Nat → Buf) : Buf := b.take n ++ fresh (n - b.length)

/-- The loop of `__osip_uri_escape_nonascii_and_nondef` (src/osipparser2/osip_uri.c:926-960). `index`
is an `int`: its overflow is undefined behaviour. -/
def escapeLoop (dfn : Str) (fresh : Nat → Buf) : Str → Buf → Nat → Nat → Nat → Option (Buf × Nat)
  | [], ns, _, _, index => some (ns, index)
  | c :: s, ns, alloc, newlen, index =>
    if index + 3 > 2147483647 then none
    else if isAlphanum c || dfn.contains c then do
      let ns ← ns.wr index c
      escapeLoop dfn fresh s ns alloc newlen (index + 1)
    else do
      let newlen := newlen + 2
      let grow := decide (newlen > alloc)
      let ns := if grow then ns.realloc (alloc * 2) fresh else ns
      let alloc := if grow then alloc * 2 else alloc
      let ns ← ns.wrN index (sprintfHex c)
      escapeLoop dfn fresh s ns alloc newlen (index + 3)

/-- `__osip_uri_escape_nonascii_and_nondef` (src/osipparser2/osip_uri.c:910-964). -/
def uri_escape (string : Str) (dfn : Str) (fresh : Nat → Buf) : Option Buf := do
  let alloc := string.length + 1
  let (ns, index) ← escapeLoop dfn fresh string (fresh alloc) alloc alloc 0
  ns.wr index NUL

/-- The test on `*(ptr + 2)` (src/osipparser2/osip_uri.c:1012). -/
def isHex (c : Char) : Bool :=
  ('0' ≤ c && c ≤ '9') || ('a' ≤ c && c ≤ 'f') || ('A' ≤ c && c ≤ 'F')

/-- The loop of `__osip_uri_unescape` (src/osipparser2/osip_uri.c:1006-1028). The result is the block
and the final `index`. -/
def unescapeLoop (sscanf : Str → Option Nat) : Nat → Buf → Nat → Int → Int → Option (Buf × Int)
  | 0, _, _, _, _ => none
  | n + 1, b, alloc, ptr, index =>
    let alloc := alloc - 1
    if alloc = 0 then some (b, index)
    else do
      let c ← b.rd ptr
      if c = '%' then
        if alloc > 2 then
          let l ← b.strlen (ptr + 1)
          let s ← b.rdN (ptr + 1) l
          match sscanf s with
          | none => some (b, index)
          | some hex =>
            let c2 ← b.rd (ptr + 2)
            let b ← b.wr index (Char.ofNat (hex % 256))
            if c2 ≠ NUL ∧ isHex c2 then unescapeLoop sscanf n b (alloc - 2) (ptr + 3) (index + 1)
            else unescapeLoop sscanf n b (alloc - 1) (ptr + 2) (index + 1)
        else some (b, index)
      else
        let b ← b.wr index c
        unescapeLoop sscanf n b alloc (ptr + 1) (index + 1)

/-- `__osip_uri_unescape` (src/osipparser2/osip_uri.c:995-1030) on a block which holds the string at its
start. -/
def uri_unescape (sscanf : Str → Option Nat) (b : Buf) : Option Buf := do
  let alloc := (← b.strlen 0) + 1
  let (b, index) ← unescapeLoop sscanf (alloc + 1) b alloc 0 0
  b.wr index NUL

end Osip
