import Verif.Str.Buf

/-!
# Case-insensitive comparison: `src/osipparser2/osip_port.c`

A pointer into a string is the list of bytes from it to the end of its block; reading at the end of a
block is undefined (`none`). The comparison loops are those compiled for VxWorks and pSOS; elsewhere
`osip_strcasecmp` and `osip_strncasecmp` call the C library functions of the same meaning.
-/

set_option autoImplicit false

namespace Osip

/-- The C library's `tolower` in the "C" locale, as an `int`. -/
def ctolower (c : Char) : Int := if 'A' ≤ c ∧ c ≤ 'Z' then (c.toNat : Int) + 32 else (c.toNat : Int)

/-- `osip_strcasecmp` (src/osipparser2/osip_port.c:484-499). -/
def osip_strcasecmp : List Char → List Char → Option Int
  | c :: s1, d :: s2 =>
    if c ≠ NUL ∧ ctolower c = ctolower d then osip_strcasecmp s1 s2
    else some (ctolower c - ctolower d)
  | _, _ => none

/-- The loop of `osip_strncasecmp` (src/osipparser2/osip_port.c:507-514), entered with `len > 0`. -/
def strncasecmpLoop : Nat → List Char → List Char → Option Int
  | len + 1, c :: s1, d :: s2 =>
    if ctolower c = ctolower d then
      if len = 0 ∨ c = NUL ∨ d = NUL then some (ctolower c - ctolower d)
      else strncasecmpLoop len s1 s2
    else some (ctolower c - ctolower d)
  | _, _, _ => none

/-- `osip_strncasecmp` (src/osipparser2/osip_port.c:501-522). -/
def osip_strncasecmp (s1 s2 : List Char) (len : Nat) : Option Int :=
  if len = 0 then some 0 else strncasecmpLoop len s1 s2

/-- The loops of `osip_strcasestr` (src/osipparser2/osip_port.c:535-541); `some none` is `NULL`. -/
def strcasestrLoop (c : Int) (needle : List Char) (len : Nat) : List Char → Option (Option (List Char))
  | [] => none
  | sc :: haystack =>
    if sc = NUL then some none
    else if ctolower sc ≠ c then strcasestrLoop c needle len haystack
    else do
      let r ← osip_strncasecmp haystack needle len
      if r ≠ 0 then strcasestrLoop c needle len haystack
      else some (some (sc :: haystack))

/-- `osip_strcasestr` (src/osipparser2/osip_port.c:526-545). -/
def osip_strcasestr (haystack needle : List Char) : Option (Option (List Char)) :=
  match needle with
  | [] => none
  | c :: needle' =>
    if c = NUL then some (some haystack)
    else do
      let len ← Buf.strlen needle' 0
      strcasestrLoop (ctolower c) needle' len haystack

/-- `osip_tolower` (src/osipparser2/osip_port.c:464-482), the loop with `tolower`. -/
def osip_tolower : List Char → Option (List Char)
  | [] => none
  | c :: word =>
    if c = NUL then some (c :: word)
    else do return Char.ofNat (ctolower c).toNat :: (← osip_tolower word)

end Osip
