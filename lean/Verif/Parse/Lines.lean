import Verif.Str.Buf

/-!
# Line handling of the parser: `src/osipparser2/osip_message_parse.c`

A pointer into a string is the list of bytes from it to the end of its block; reading at the end of the
block is undefined (`none`).
-/

set_option autoImplicit false

namespace Osip

def CR : Char := '\r'
def LF : Char := '\n'

/-- The inner loop of `osip_util_replace_all_lws` (src/osipparser2/osip_message_parse.c:316-319): the bytes
passed, all of them made spaces, and those from the first other byte on. -/
def lwsSkip : List Char → Option (List Char × List Char)
  | [] => none
  | c :: t =>
    if c = '\t' ∨ c = ' ' then do
      let (a, b) ← lwsSkip t
      return (' ' :: a, b)
    else some ([], c :: t)

/-- The loop of `osip_util_replace_all_lws` (src/osipparser2/osip_message_parse.c:295-321). The result is
the block from `tmp` on after the call. -/
def lwsLoop : Nat → List Char → Option (List Char)
  | 0, _ => none
  | _ + 1, [] => none
  | n + 1, c0 :: t0 =>
    if c0 = NUL then some (c0 :: t0)
    else match t0 with
    | [] => none
    | c1 :: t1 =>
      if c1 = NUL then some (c0 :: c1 :: t1)
      else match t1 with
      | [] => none
      | c2 :: t2 =>
        if c2 = NUL then some (c0 :: c1 :: c2 :: t2)
        else match t2 with
        | [] => none
        | c3 :: t3 =>
          if c3 = NUL then some (c0 :: c1 :: c2 :: c3 :: t3)
          else if (c0 = CR ∧ c1 = LF ∧ c2 = CR ∧ c3 = LF) ∨ (c0 = CR ∧ c1 = CR) ∨ (c0 = LF ∧ c1 = LF) then
            some (c0 :: c1 :: c2 :: c3 :: t3)
          else if (c0 = CR ∧ c1 = LF ∧ (c2 = ' ' ∨ c2 = '\t')) ∨ (c0 = CR ∧ (c1 = ' ' ∨ c1 = '\t')) ∨
              (c0 = LF ∧ (c1 = ' ' ∨ c1 = '\t')) then do
            let (sp, rest) ← lwsSkip (c2 :: c3 :: t3)
            match rest with
            | [] => none
            | x :: rest => return ' ' :: ' ' :: (sp ++ x :: (← lwsLoop n rest))
          else do return c0 :: (← lwsLoop n (c1 :: c2 :: c3 :: t3))

/-- `osip_util_replace_all_lws` (src/osipparser2/osip_message_parse.c:284-322) on a non-null pointer. -/
def replace_all_lws (b : List Char) : Option (List Char) := lwsLoop (b.length + 1) b

/-- Outcome of the functions which look for the end of a line or of a part: `at` is the pointer stored,
as an offset from the start. -/
inductive Found
  | at (i : Nat)
  | syntaxError
  /-- -2 with a null pointer stored: the line is continued. -/
  | continued
  deriving DecidableEq, Repr

/-- `__osip_find_next_crlf` (src/osipparser2/osip_message_parse.c:324-360); `i` is the offset of the pointer
`soh` from the start. -/
def find_next_crlf : List Char → Nat → Option Found
  | [], _ => none
  | c :: t, i =>
    if c = CR ∨ c = LF then
      match t with
      | [] => none
      | d :: u =>
        if c = CR ∧ d = LF then
          match u with
          | [] => none
          | e :: _ => if e = ' ' ∨ e = '\t' then some .continued else some (.at (i + 2))
        else if d = ' ' ∨ d = '\t' then some .continued else some (.at (i + 1))
    else if c = NUL then some .syntaxError
    else find_next_crlf t (i + 1)

/-- The loop of `__osip_find_next_crlfcrlf` (src/osipparser2/osip_message_parse.c:371-394). After a
continued line the null pointer `end_of_line` is read: undefined. -/
def crlfcrlfLoop : Nat → List Char → Nat → Option Found
  | 0, _, _ => none
  | n + 1, s, i => do
    match ← find_next_crlf s 0 with
    | .continued => none
    | .syntaxError => some .syntaxError
    | .at k =>
      match s.drop k with
      | [] => none
      | c :: t =>
        if c = NUL then some .syntaxError
        else if c = CR then
          match t with
          | [] => none
          | d :: _ => some (.at (i + k + (if d = LF then 1 else 0) + 1))
        else if c = LF then some (.at (i + k + 1))
        else crlfcrlfLoop n (s.drop k) (i + k)

/-- `__osip_find_next_crlfcrlf` (src/osipparser2/osip_message_parse.c:362-395). -/
def find_next_crlfcrlf (s : List Char) : Option Found := crlfcrlfLoop (s.length + 1) s 0

end Osip
