import Verif.Base

/-!
# Texts of errors and waiting: `src/osipparser2/osip_port.c`

`none` is undefined behaviour (an index outside of the table, an overflow). An `int` is an `Int` of 32 bits.
-/

set_option autoImplicit false

namespace Osip.Port

/-- An `int`. -/
def IsInt (n : Int) : Prop := -2147483648 ≤ n ∧ n ≤ 2147483647

instance (n : Int) : Decidable (IsInt n) := inferInstanceAs (Decidable (_ ∧ _))

/-- `osip_error_table` (src/osipparser2/osip_port.c:142-203). -/
def osip_error_table : List String :=
  ["success", "undefined error", "bad parameter", "wrong state", "allocation failure", "syntax error", "not found",
   "api not initialized", "undefined", "undefined",
   "no network", "busy port", "unknown host", "undefined", "undefined", "undefined", "undefined", "undefined", "undefined", "undefined",
   "undefined", "undefined", "undefined", "undefined", "undefined", "undefined", "undefined", "undefined", "undefined", "undefined",
   "disk full", "no rights", "file not found", "undefined", "undefined", "undefined", "undefined", "undefined", "undefined", "undefined",
   "undefined", "undefined", "undefined", "undefined", "undefined", "undefined", "undefined", "undefined", "undefined", "undefined",
   "time out", "too much call", "wrong format", "no common codec", "undefined", "undefined", "undefined", "undefined", "undefined",
   "undefined", "undefined"]

/-- An entry of a table at an index that is an `int`. -/
def entry (t : List String) (i : Int) : Option String := if 0 ≤ i then t[i.toNat]? else none

/-- `osip_strerror` (src/osipparser2/osip_port.c:205-213). -/
def osip_strerror (err : Int) : Option String :=
  if err > 0 then entry osip_error_table 0
  else if err > -60 then (if IsInt (-err) then entry osip_error_table (-err) else none)
  else entry osip_error_table 59

/-- `struct timeval`. -/
structure Timeval where
  sec : Int
  usec : Int
  deriving DecidableEq

/-- The delay that `osip_usleep` hands to `select`: the last branch (src/osipparser2/osip_port.c:430-443) and the one for Windows
Phone (src/osipparser2/osip_port.c:403-416). -/
def osip_usleep_delay (useconds : Int) : Timeval :=
  let sec := useconds.tdiv 1000000
  if sec > 0 then ⟨sec, 0⟩ else ⟨0, useconds⟩

/-- How long `select` without descriptors waits, in microseconds: POSIX refuses a negative part (EINVAL) at once. No signal comes. -/
def select_wait (d : Timeval) : Nat := if d.sec < 0 ∨ d.usec < 0 ∨ 1000000 ≤ d.usec then 0 else (d.sec * 1000000 + d.usec).toNat

/-- `osip_usleep` (src/osipparser2/osip_port.c:389-445) on a system with `select`: the microseconds it waits. -/
def osip_usleep (useconds : Int) : Nat := select_wait (osip_usleep_delay useconds)

end Osip.Port
