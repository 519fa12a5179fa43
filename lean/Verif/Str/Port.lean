import Verif.Str.Buf

/-!
# String helpers of `src/osipparser2/osip_port.c`

Buffers and pointers as in `Verif/Str/Buf.lean`. A loop takes as many rounds as given by its first
argument at most; `none` is also the result of a loop which needs more (the callers give enough: the
theorems show that the result is never `none`). Allocation succeeds; the contents of fresh memory is
a parameter.
-/

set_option autoImplicit false

namespace Osip

/-- The blanks of `osip_clrspace` and `osip_clrncpy` (src/osipparser2/osip_port.c:562, 1475). -/
def isBlank (c : Char) : Bool := c == ' ' || c == '\r' || c == '\n' || c == '\t'

/-- `while (blank (*pbeg)) pbeg++` (src/osipparser2/osip_port.c:562-563, 1475-1476). -/
def skipBlanks (b : Buf) : Nat → Int → Option Int
  | 0, _ => none
  | n + 1, i => do
    let c ← b.rd i
    if isBlank c then skipBlanks b n (i + 1) else some i

/-- `while (blank (*pend)) { pend--; if (pend < pbeg) ... }` (src/osipparser2/osip_port.c:566-572,
1481-1487). `some none`: the `if` was taken. -/
def backBlanks (b : Buf) (pbeg : Int) : Nat → Int → Option (Option Int)
  | 0, _ => none
  | n + 1, i => do
    let c ← b.rd i
    if isBlank c then
      if i - 1 < pbeg then some none else backBlanks b pbeg n (i - 1)
    else some (some i)

/-- `osip_clrspace` (src/osipparser2/osip_port.c:548-583) on a block which holds the string at its
start. -/
def osip_clrspace (word : Option Buf) : Option (Int × Option Buf) :=
  match word with
  | none => some (OSIP_UNDEFINED_ERROR, none)
  | some b => do
    if (← b.rd 0) = NUL then
      return (OSIP_SUCCESS, some b)
    let len ← b.strlen 0
    let pbeg ← skipBlanks b (len + 1) 0
    match ← backBlanks b pbeg len ((len : Int) - 1) with
    | none =>
      let b ← b.wr 0 NUL
      return (OSIP_SUCCESS, some b)
    | some pend =>
      let b ← (if pend + 1 ≤ (len : Int) - 1 then b.wr (pend + 1) NUL else some b)
      let b ← (if pbeg ≠ 0 then b.move 0 pbeg (pend - pbeg + 2).toNat else some b)
      return (OSIP_SUCCESS, some b)

/-- `do *++p = '\0'; while (++spaceless_length < len)` (src/osipparser2/osip_port.c:1499-1502). `k` is
`spaceless_length`. -/
def padZeros (len : Nat) : Nat → Buf → Int → Nat → Option Buf
  | 0, _, _, _ => none
  | n + 1, dst, p, k => do
    let dst ← dst.wr (p + 1) NUL
    if k + 1 < len then padZeros len n dst (p + 1) (k + 1) else some dst

/-- `osip_clrncpy` (src/osipparser2/osip_port.c:1460-1515, GNU C variant). `dst` is the destination
block, `src` the block of the source string; they do not overlap. -/
def osip_clrncpy (dst : Buf) (src : Option Buf) (len : Nat) : Option Buf :=
  match src with
  | none => dst.wr 0 NUL
  | some src =>
    if len = 0 then dst.wr 0 NUL
    else do
      let pbeg ← skipBlanks src (src.length + 1) 0
      match ← backBlanks src pbeg len ((len : Int) - 1) with
      | none => dst.wr 0 NUL
      | some pend =>
        let k := (pend - pbeg + 1).toNat
        let dst ← dst.wrN 0 (← src.rdN pbeg k)
        let dst ← dst.wr (k : Int) NUL
        if k + 1 < len then padZeros len len dst (k : Int) (k + 1) else some dst

/-- `osip_strncpy` (src/osipparser2/osip_port.c:334-341) into `dest + at_`, from the string `src`: libc
`strncpy` copies at most `length` bytes and pads with NULs. -/
def osip_strncpy (dest : Buf) (at_ : Int) (src : Str) (length : Nat) : Option Buf := do
  let dest ← dest.wrN at_ (src.take length ++ List.replicate (length - src.length) NUL)
  dest.wr (at_ + length) NUL

/-- `osip_strdup_without_quote` (src/osipparser2/osip_port.c:446-463). `fresh` is the contents of the
block returned by `osip_malloc`. -/
def osip_strdup_without_quote (ch : Str) (fresh : Nat → Buf) : Option Buf := do
  let copy := fresh (ch.length + 1)
  match ch with
  | '"' :: rest =>
    let copy ← osip_strncpy copy 0 rest rest.length
    let l ← copy.strlen 0
    osip_strncpy copy ((l : Int) - 1) [] 1
  | _ => osip_strncpy copy 0 ch ch.length

/-- libc `strchr (b + i, c)` for `c` other than NUL: the position of the first `c` before the
terminator; `some none`: there is none. -/
def Buf.strchr (b : Buf) (i : Int) (c : Char) : Option (Option Int) :=
  if 0 ≤ i then
    let s := b.drop i.toNat
    if NUL ∈ s then
      let t := s.takeWhile (fun x => x ≠ NUL ∧ x ≠ c)
      if s[t.length]? = some c then some (some (i + t.length)) else some none
    else none
  else none

/-- The loop of `__osip_quote_find` (src/osipparser2/osip_port.c:681-717). `q` is `qstring`, `quote`
the quote looked at, `i` the counter. `strncmp (quote - i, "\\", 1) == 0` reads one byte. -/
def quoteLoop (b : Buf) : Nat → Int → Int → Int → Option (Option Int)
  | 0, _, _, _ => none
  | n + 1, q, quote, i => do
    if (← b.rd (quote - i)) = '\\' then
      let i := i + 1
      if quote - i = q - 1 then
        let i := if (← b.rd q) = '\\' then i + 1 else i
        if i % 2 = 0 then return some quote
        match ← b.strchr (quote + 1) '"' with
        | none => return none
        | some quote' => quoteLoop b n (quote + 1) quote' 1
      else quoteLoop b n q quote i
    else
      if i % 2 = 1 then return some quote
      match ← b.strchr (quote + 1) '"' with
      | none => return none
      | some quote' =>
        if quote' - 1 = q - 1 then
          let i : Int := if (← b.rd q) = '\\' then 1 + 1 else 1
          if i % 2 = 0 then return some quote'
          match ← b.strchr (quote' + 1) '"' with
          | none => return none
          | some quote'' => quoteLoop b n (quote' + 1) quote'' 1
        else quoteLoop b n q quote' 1

/-- `__osip_quote_find` (src/osipparser2/osip_port.c:660-719); the result is the offset of the quote. -/
def quote_find (b : Buf) : Option (Option Int) := do
  match ← b.strchr 0 '"' with
  | none => return none
  | some quote =>
    if quote = 0 then return some quote
    quoteLoop b (2 * b.length) 0 quote 1

/-- The loop of `osip_enquote` (src/osipparser2/osip_port.c:730-747). -/
def enquoteLoop : Str → Buf → Int → Option (Buf × Int)
  | [], rtn, t => some (rtn, t)
  | c :: s, rtn, t => do
    if c = '"' ∨ c = '\\' ∨ c = '\x7f' then
      let rtn ← rtn.wr t '\\'
      let rtn ← rtn.wr (t + 1) c
      enquoteLoop s rtn (t + 2)
    else if c = '\n' ∨ c = '\r' then
      let rtn ← rtn.wr t ' '
      enquoteLoop s rtn (t + 1)
    else
      let rtn ← rtn.wr t c
      enquoteLoop s rtn (t + 1)

/-- `osip_enquote` (src/osipparser2/osip_port.c:721-751). -/
def osip_enquote (s : Str) (fresh : Nat → Buf) : Option Buf := do
  let rtn := fresh (s.length * 2 + 3)
  let rtn ← rtn.wr 0 '"'
  let (rtn, t) ← enquoteLoop s rtn 1
  let rtn ← rtn.wr t '"'
  rtn.wr (t + 1) NUL

/-- The loop of `osip_dequote` (src/osipparser2/osip_port.c:766-769). `len` is a `size_t`: it wraps
around. -/
def dequoteLoop : Nat → Buf → Int → Nat → Option Buf
  | 0, _, _, _ => none
  | n + 1, b, s, len => do
    let c ← b.rd s
    if c = NUL then return b
    if c = '\\' then
      let b ← b.move s (s + 1) len
      dequoteLoop n b (s + 1) ((len + 2 ^ 64 - 2) % 2 ^ 64)
    else dequoteLoop n b (s + 1) ((len + 2 ^ 64 - 1) % 2 ^ 64)

/-- `osip_dequote` (src/osipparser2/osip_port.c:753-770). -/
def osip_dequote (b : Buf) : Option Buf := do
  let c ← b.rd 0
  if c = NUL then return b
  if c ≠ '"' then return b
  let len ← b.strlen 0
  let b ← b.move 0 1 len
  let len := len - 1
  let last ← (if len > 0 then b.rd ((len : Int) - 1) else some NUL)
  if len > 0 ∧ last = '"' then
    let b ← b.wr ((len : Int) - 1) NUL
    dequoteLoop (b.length + 1) b 0 (len - 1)
  else dequoteLoop (b.length + 1) b 0 len

/-- The scan of `__osip_set_next_token` (src/osipparser2/osip_port.c:604-606). -/
def tokenScan (b : Buf) (sepc : Char) : Nat → Int → Option Int
  | 0, _ => none
  | n + 1, i => do
    let c ← b.rd i
    if c ≠ sepc ∧ c ≠ NUL ∧ c ≠ '\r' ∧ c ≠ '\n' then tokenScan b sepc n (i + 1) else some i

/-- `__osip_set_next_token` (src/osipparser2/osip_port.c:597-624) from position `buf` of the block;
the result is the token and the position behind the separator, or the error code. -/
def set_next_token (b : Buf) (buf : Int) (sepc : Char) : Option (Except Int (Str × Int)) := do
  let sep ← tokenScan b sepc (b.length + 1) buf
  let c ← b.rd sep
  if (c = '\r' ∨ c = '\n') ∧ c ≠ sepc then return .error OSIP_UNDEFINED_ERROR
  if c = NUL then return .error OSIP_UNDEFINED_ERROR
  if sep = buf then return .error OSIP_UNDEFINED_ERROR
  let t ← b.rdN buf (sep - buf).toNat
  return .ok (t, sep + 1)

end Osip
