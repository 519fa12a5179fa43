/-!
# Common definitions: C strings, error codes, small libc functions

A C string is modelled as the list of its bytes before the terminating NUL; a byte is a `Char`
(only the code points 0..255 are meaningful).
-/

namespace Osip

/-- A NUL-terminated C string, without its terminator. -/
abbrev Str := List Char

/-- include/osipparser2/osip_port.h:314 -/
def OSIP_SUCCESS : Int := 0
/-- include/osipparser2/osip_port.h:315 -/
def OSIP_UNDEFINED_ERROR : Int := -1
/-- include/osipparser2/osip_port.h:316 -/
def OSIP_BADPARAMETER : Int := -2
/-- include/osipparser2/osip_port.h:317 -/
def OSIP_WRONG_STATE : Int := -3
/-- include/osipparser2/osip_port.h:318 -/
def OSIP_NOMEM : Int := -4
/-- include/osipparser2/osip_port.h:319 -/
def OSIP_SYNTAXERROR : Int := -5

/-- libc `tolower` in the "C" locale. -/
def toLowerC (c : Char) : Char :=
  if 'A' ≤ c ∧ c ≤ 'Z' then Char.ofNat (c.toNat + 32) else c

/-- libc `strcasecmp (a, b) == 0`, which `osip_strcasecmp` calls on POSIX systems
(src/osipparser2/osip_port.c:485-503). -/
def strcaseEq (a b : Str) : Bool := a.map toLowerC == b.map toLowerC

/-- libc `isspace` in the "C" locale (used by `strtol` to skip blanks). -/
def isSpaceC (c : Char) : Bool :=
  c == ' ' || c == '\t' || c == '\n' || c == '\x0b' || c == '\x0c' || c == '\r'

/-- Value of a decimal digit. -/
def digitVal (c : Char) : Option Nat :=
  if '0' ≤ c ∧ c ≤ '9' then some (c.toNat - '0'.toNat) else none

/-- Value of the leading decimal digits of `s`, accumulated on `acc`. -/
def digits (acc : Nat) : Str → Nat
  | [] => acc
  | c :: cs => match digitVal c with
    | some d => digits (acc * 10 + d) cs
    | none => acc

/-- libc `strtol (s, NULL, 10)` with a 64-bit `long`. -/
def strtol (s : Str) : Int :=
  let s := s.dropWhile isSpaceC
  let v : Int := match s with
    | '-' :: r => - (digits 0 r : Int)
    | '+' :: r => (digits 0 r : Int)
    | r => (digits 0 r : Int)
  if v > 2^63 - 1 then 2^63 - 1 else if v < -2^63 then -2^63 else v

/-- Conversion of a `long` to `int` (32 bits, wrap-around as all usual compilers define it). -/
def toInt32 (v : Int) : Int := (v + 2^31) % 2^32 - 2^31

/-- `osip_atoi` (src/osipparser2/osip_port.c:362-377), branch `__linux`, LP64: the result of
`strtol` is stored in an `int`, so the comparisons with `LONG_MIN`/`LONG_MAX` are never true. -/
def osip_atoi (number : Option Str) : Int :=
  match number with
  | none => OSIP_UNDEFINED_ERROR
  | some s => toInt32 (strtol s)

example : osip_atoi (some "5060".toList) = 5060 := by decide
example : osip_atoi (some " -12x".toList) = -12 := by decide

end Osip
