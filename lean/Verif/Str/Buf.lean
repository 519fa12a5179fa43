import Verif.Base

/-!
# Byte buffers

An allocated block of memory is the list of its bytes, a pointer into it is an offset (an `Int`,
because the code also computes pointers before the start). Reading or writing outside the block is
undefined behaviour: `none`.
-/

set_option autoImplicit false

namespace Osip

/-- The bytes of an allocated block. -/
abbrev Buf := List Char

/-- The terminator. -/
abbrev NUL : Char := '\x00'

/-- `b[i]` as a value. -/
def Buf.rd (b : Buf) (i : Int) : Option Char := if 0 ≤ i then b[i.toNat]? else none

/-- `b[i] = c`. -/
def Buf.wr (b : Buf) (i : Int) (c : Char) : Option Buf :=
  if 0 ≤ i ∧ i.toNat < b.length then some (b.set i.toNat c) else none

/-- The `n` bytes at `i`. -/
def Buf.rdN (b : Buf) (i : Int) (n : Nat) : Option (List Char) :=
  if 0 ≤ i ∧ i.toNat + n ≤ b.length then some ((b.drop i.toNat).take n) else none

/-- Overwrites the bytes at `i` by `cs`. -/
def Buf.wrN (b : Buf) (i : Int) (cs : List Char) : Option Buf :=
  if 0 ≤ i ∧ i.toNat + cs.length ≤ b.length then
    some (b.take i.toNat ++ cs ++ b.drop (i.toNat + cs.length))
  else none

/-- libc `memmove (b + dst, b + src, n)` within one block. -/
def Buf.move (b : Buf) (dst src : Int) (n : Nat) : Option Buf := do
  b.wrN dst (← b.rdN src n)

/-- libc `strlen (b + i)`: the number of bytes before the first NUL; there must be one. -/
def Buf.strlen (b : Buf) (i : Int) : Option Nat :=
  if 0 ≤ i then
    let s := b.drop i.toNat
    if NUL ∈ s then some (s.takeWhile (· ≠ NUL)).length else none
  else none

/-- The string which starts at the beginning of a block. -/
def Buf.str (b : Buf) : Str := b.takeWhile (· ≠ NUL)

/-- The block holding exactly the string `s`. -/
def Str.buf (s : Str) : Buf := s ++ [NUL]

/-- A C string has no NUL inside. -/
def Str.Ok (s : Str) : Prop := NUL ∉ s

instance (s : Str) : Decidable (Str.Ok s) := inferInstanceAs (Decidable (NUL ∉ s))

/-! ## Lemmas -/

theorem rd_nat (b : Buf) (n : Nat) : b.rd (n : Int) = b[n]? := by
  simp [Buf.rd]

theorem rd_at (p : List Char) (c : Char) (q : List Char) {i : Int} (hi : i = p.length) :
    Buf.rd (p ++ c :: q) i = some c := by
  subst hi
  simp [Buf.rd]

theorem wr_at (p : List Char) (c d : Char) (q : List Char) {i : Int} (hi : i = p.length) :
    Buf.wr (p ++ c :: q) i d = some (p ++ d :: q) := by
  subst hi
  simp [Buf.wr]

theorem rdN_at (p m q : List Char) {i : Int} {n : Nat} (hi : i = p.length) (hn : n = m.length) :
    Buf.rdN (p ++ m ++ q) i n = some m := by
  subst hi; subst hn
  simp [Buf.rdN]

theorem wrN_at (p m q cs : List Char) {i : Int} (hi : i = p.length) (hn : cs.length = m.length) :
    Buf.wrN (p ++ m ++ q) i cs = some (p ++ cs ++ q) := by
  subst hi
  simp only [Buf.wrN, List.length_append]
  rw [if_pos]
  · simp [hn]
  · simp; omega

theorem takeWhile_ok {s : Str} (h : s.Ok) (r : List Char) :
    (s ++ NUL :: r).takeWhile (· ≠ NUL) = s := by
  induction s with
  | nil => simp
  | cons c s ih =>
    simp only [Str.Ok, List.mem_cons, not_or] at h
    have hc : c ≠ NUL := fun e => h.1 e.symm
    rw [List.cons_append, List.takeWhile_cons_of_pos (by simpa using hc), ih h.2]

theorem str_at {s : Str} (h : s.Ok) (r : List Char) : Buf.str (s ++ NUL :: r) = s :=
  takeWhile_ok h r

theorem strlen_at (p : List Char) {s : Str} (h : s.Ok) (r : List Char) {i : Int} (hi : i = p.length) :
    Buf.strlen (p ++ (s ++ NUL :: r)) i = some s.length := by
  subst hi
  have := takeWhile_ok h r
  simp only [Buf.strlen]
  rw [if_pos (by omega)]
  simp only [Int.toNat_natCast, List.drop_left]
  rw [if_pos (by simp), this]

theorem strlen_buf {s : Str} (h : s.Ok) : Buf.strlen s.buf 0 = some s.length := by
  have := strlen_at [] h [] (i := 0) rfl
  simpa [Str.buf] using this

end Osip
