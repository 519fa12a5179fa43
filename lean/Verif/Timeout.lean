import Verif.Fsm.Model

/-!
# `osip_timers_gettimeout` (src/osip2/osip.c:1266-1430)

The stack is given by its four transaction lists, each transaction with its queue of events, and by
the deadlines (`start`) of the entries of the 2xx/ACK retransmission list.
-/

namespace Osip

/-- What `osip_timers_gettimeout` looks at. -/
structure TimerView where
  icts : List (Tr × List Ev) := []
  ists : List (Tr × List Ev) := []
  nicts : List (Tr × List Ev) := []
  nists : List (Tr × List Ev) := []
  ixts : List TimeVal := []

/-- The calls of `min_timercmp` for an INVITE client transaction (src/osip2/osip.c:1294-1299). -/
def ictMin (tr : Tr) (lower : TimeVal) : TimeVal :=
  let lower := if tr.state = .ICT_CALLING then min_timercmp lower tr.ict.timer_b_start else lower
  let lower := if tr.state = .ICT_CALLING then min_timercmp lower tr.ict.timer_a_start else lower
  if tr.state = .ICT_COMPLETED then min_timercmp lower tr.ict.timer_d_start else lower

/-- The same for an INVITE server transaction (src/osip2/osip.c:1321-1326). -/
def istMin (tr : Tr) (lower : TimeVal) : TimeVal :=
  let lower := if tr.state = .IST_CONFIRMED then min_timercmp lower tr.ist.timer_i_start else lower
  let lower := if tr.state = .IST_COMPLETED then min_timercmp lower tr.ist.timer_h_start else lower
  if tr.state = .IST_COMPLETED then min_timercmp lower tr.ist.timer_g_start else lower

/-- The same for a non-INVITE client transaction (src/osip2/osip.c:1346-1351). -/
def nictMin (tr : Tr) (lower : TimeVal) : TimeVal :=
  let lower := if tr.state = .NICT_COMPLETED then min_timercmp lower tr.nict.timer_k_start else lower
  let lower := if tr.state = .NICT_PROCEEDING ∨ tr.state = .NICT_TRYING
    then min_timercmp lower tr.nict.timer_f_start else lower
  if tr.state = .NICT_PROCEEDING ∨ tr.state = .NICT_TRYING
    then min_timercmp lower tr.nict.timer_e_start else lower

/-- The same for a non-INVITE server transaction (src/osip2/osip.c:1371-1372). -/
def nistMin (tr : Tr) (lower : TimeVal) : TimeVal :=
  if tr.state = .NIST_COMPLETED then min_timercmp lower tr.nist.timer_j_start else lower

/-- One of the loops: `pending` is the test made before the timers (it is only there for INVITE
client transactions). `none`: the function returned zero. -/
def minLoop {α : Type} (now : TimeVal) (pending : α → Bool) (f : α → TimeVal → TimeVal) :
    List α → TimeVal → Option TimeVal
  | [], lower => some lower
  | x :: xs, lower =>
    if pending x then none
    else
      let lower := f x lower
      if timerGt now lower then none else minLoop now pending f xs lower

/-- The subtraction at the end (src/osip2/osip.c:1414-1429). -/
def subtractNow (lower now : TimeVal) : TimeVal :=
  let sec := lower.sec - now.sec
  let usec := lower.usec - now.usec
  let (sec, usec) := if usec < 0 then (sec - 1, usec + 1000000) else (sec, usec)
  let (sec, usec) := if sec < 0 then (0, 0) else (sec, usec)
  let (sec, usec) := if usec > 1000000 then (sec + 1, usec - 1000000) else (sec, usec)
  ⟨sec, usec⟩

/-- `osip_timers_gettimeout` (src/osip2/osip.c:1266-1430). -/
def osip_timers_gettimeout (v : TimerView) (now : TimeVal) : TimeVal :=
  let lower : TimeVal := ⟨now.sec + 3600 * 24 * 365, now.usec⟩
  let r : Option TimeVal := do
    let lower ← minLoop now (fun x => !x.2.isEmpty) (fun x => ictMin x.1) v.icts lower
    let lower ← minLoop now (fun _ => false) (fun x => istMin x.1) v.ists lower
    let lower ← minLoop now (fun _ => false) (fun x => nictMin x.1) v.nicts lower
    let lower ← minLoop now (fun _ => false) (fun x => nistMin x.1) v.nists lower
    minLoop now (fun _ => false) (fun s l => min_timercmp l s) v.ixts lower
  match r with
  | none => ⟨0, 0⟩
  | some lower => subtractNow lower now

end Osip
