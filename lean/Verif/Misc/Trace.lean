import Verif.Parse.FixVia

/-!
# The trace: `src/osipparser2/osip_port.c`, with `ENABLE_TRACE`

Model of the table of levels and of `osip_trace` with the system log (`osip_trace_initialize_syslog`, no function of the application
set). The text which the format and its arguments give is a string. `none` is undefined behaviour.
-/

set_option autoImplicit false

namespace Osip.Trace

/-- `tracing_table` (src/osipparser2/osip_port.c:128) with `END_TRACE_LEVEL` entries (include/osipparser2/osip_port.h:223). -/
abbrev Table := List Bool

/-- The table at the start of the program. -/
def initial : Table := List.replicate 8 false

/-- The loop of `osip_trace_initialize`, `osip_trace_initialize_syslog`, `osip_trace_enable_until_level` and
`osip_trace_initialize_func` (src/osipparser2/osip_port.c:831-837, :851-857, :865-871, :882-888). -/
def osip_trace_enable_until_level (level : Int) : Table := (List.range 8).map fun (i : Nat) => decide ((i : Int) < level)

/-- `osip_trace_enable_level` (src/osipparser2/osip_port.c:892-896). -/
def osip_trace_enable_level (t : Table) (level : Nat) : Option Table := if level < t.length then some (t.set level true) else none

/-- `osip_trace_disable_level` (src/osipparser2/osip_port.c:899-903). -/
def osip_trace_disable_level (t : Table) (level : Nat) : Option Table := if level < t.length then some (t.set level false) else none

/-- `osip_is_trace_level_activate` (src/osipparser2/osip_port.c:906-910). -/
def osip_is_trace_level_activate (t : Table) (level : Nat) : Option Bool := t[level]?

/-- A call that changes the table. -/
inductive Call
  | untilLevel (level : Int)
  | enable (level : Nat)
  | disable (level : Nat)
  deriving DecidableEq

def Call.run (t : Table) : Call → Option Table
  | .untilLevel l => some (osip_trace_enable_until_level l)
  | .enable l => osip_trace_enable_level t l
  | .disable l => osip_trace_disable_level t l

def runCalls : List Call → Table → Option Table
  | [], t => some t
  | c :: cs, t => (c.run t).bind (runCalls cs)

/-- `strrchr (s, c)` followed by `fi++`: what stands behind the last `c`. -/
def behindLast (c : Char) (s : Str) : Option Str := if c ∈ s then some (s.reverse.takeWhile (· ≠ c)).reverse else none

/-- The name of the file without directories (src/osipparser2/osip_port.c:966-974). -/
def baseName (s : Str) : Str := ((behindLast '/' s).or (behindLast '\\' s)).getD s

/-- The beginning of the format (src/osipparser2/osip_port.c:1093-1108). -/
def tag : Nat → Str
  | 0 => "| FATAL | <".toList
  | 1 => "|  BUG  | <".toList
  | 2 => "| ERROR | <".toList
  | 3 => "|WARNING| <".toList
  | 4 => "| INFO1 | <".toList
  | 5 => "| INFO2 | <".toList
  | 6 => "| INFO3 | <".toList
  | 7 => "| INFO4 | <".toList
  | _ => []

/-- What the first `snprintf` prints. -/
def lineHead (level : Nat) (fi : Str) (li : Int) : Str := tag level ++ fi ++ ": ".toList ++ intText li ++ "> ".toList

/-- `MAX_LENGTH_TR` (src/osipparser2/osip_port.c:946). -/
def MAX_LENGTH_TR : Nat := 512

/-- `snprintf (buffer + i, size, …)` and `vsnprintf` for the text `s`; an `int` given for the size becomes a `size_t` of 64 bits. -/
def snprintf (b : Buf) (i : Nat) (size : Int) (s : Str) : Option Buf :=
  let n := (if size < 0 then size + 2 ^ 64 else size).toNat
  if n = 0 then some b else b.wrN i (s.take (n - 1) ++ [NUL])

/-- `osip_trace` (src/osipparser2/osip_port.c:950-1180) with the system log: what is logged, if anything is. A null pointer is
printed with `%s` if there is no file name. -/
def osip_trace (t : Table) (file : Option Str) (li : Int) (level : Nat) (text : Str) : Option (Option Str) := do
  let active ← t[level]?
  if active = false then return none
  let fi ← file.map baseName
  let buffer := List.replicate MAX_LENGTH_TR NUL
  let head := lineHead level fi li
  let buffer ← snprintf buffer 0 (MAX_LENGTH_TR - 1) head
  let buffer ← snprintf buffer head.length (MAX_LENGTH_TR - 1 - head.length) text
  return some (Buf.str buffer)

end Osip.Trace
