import Verif.Parse.Ptr
import Verif.Parse.Lines
import Verif.Base

/-!
# The loop over the header lines: `src/osipparser2/osip_message_parse.c`

Pointers as in `Verif/Parse/Ptr.lean`. Memory allocation succeeds. `set` stands for `osip_message_set_multiple_header`
on a message `st`; a missing value is a null pointer.
-/

set_option autoImplicit false

namespace Osip

variable {σ : Type}

/-- The value of a header (src/osipparser2/osip_message_parse.c:621-643); `k` is `end_of_header - start_of_header`. -/
def headerValue (start colon : List Char) (k : Nat) : Option (Option Str) := do
  let c ← (if k < 2 then none else deref (start.drop (k - 2)))
  let e : Int := if c = CR ∨ c = LF then k - 2 else k - 1
  let n := e - pdiff colon start
  if n < 2 then return none
  let v ← clrncpy (colon.drop 1) (n - 1)
  return some v

/-- The loop of `msg_headers_parse` (src/osipparser2/osip_message_parse.c:573-664): return code, message and `*body`, if it is
set. A comparison of the null pointer stored for a continued line is true. -/
def headersLoop (set : σ → Str → Option Str → Option (Int × σ)) :
    Nat → σ → List Char → Option (Int × σ × Option (List Char))
  | 0, _, _ => none
  | n + 1, st, start => do
    let c ← deref start
    if c = NUL then return (OSIP_SUCCESS, st, none)
    let f ← find_next_crlf start 0
    if f = .syntaxError then return (OSIP_SYNTAXERROR, st, none)
    if c = CR ∨ c = LF then return (OSIP_SUCCESS, st, some start)
    match ← cstrchr ':' start with
    | none => return (OSIP_SYNTAXERROR, st, none)
    | some colon =>
      if pdiff colon start + 1 < 2 then return (OSIP_SYNTAXERROR, st, none)
      match f with
      | .at k =>
        if (k : Int) ≤ pdiff colon start then return (OSIP_SYNTAXERROR, st, none)
        let hname ← clrncpy start (pdiff colon start)
        let hvalue ← headerValue start colon k
        let (i, st) ← set st hname hvalue
        if i ≠ 0 then return (OSIP_SYNTAXERROR, st, none)
        headersLoop set n st (start.drop k)
      | _ => return (OSIP_SYNTAXERROR, st, none)

/-- `msg_headers_parse` (src/osipparser2/osip_message_parse.c:573-664). -/
def msg_headers_parse (set : σ → Str → Option Str → Option (Int × σ)) (st : σ) (start : List Char) :
    Option (Int × σ × Option (List Char)) :=
  headersLoop set (start.length + 1) st start

end Osip
