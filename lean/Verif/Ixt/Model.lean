import Verif.Dialog.Model
import Verif.Time
import Verif.Dest

/-!
# Retransmission of 2xx responses and of their ACK (src/osip2/osip.c:119-280)

The mutex is left out. `ixt_retransmissions` is a `List`, and its index loops are modelled index by
index. A dialog pointer is a number; what it points to is given by a function at the time of the
call, because the application owns the dialogs and changes them.
-/

set_option autoImplicit false

namespace Osip

/-- `ixt_t` (include/osip2/osip.h:531-542). `id` is not in the C structure: it tells apart the
blocks allocated by `ixt_init`. -/
structure Ixt where
  id : Nat
  dialog : Option Nat := none
  msg2xx : Option Msg := none
  ack : Option Msg := none
  start : TimeVal
  interval : Int
  dest : Option Str := none
  port : Int := 5060
  sock : Int := -1
  counter : Int
deriving DecidableEq, Repr

/-- A call of `osip->cb_send_message (NULL, msg, dest, port, sock)` made for block `id` when the
clock was `time`. -/
structure IxtSend where
  id : Nat
  time : TimeVal
  msg : Msg
  dest : Option Str
  port : Int
  sock : Int
deriving DecidableEq, Repr

/-- `osip->ixt_retransmissions`, the next block and what was sent so far. -/
structure IxtWorld where
  list : List Ixt := []
  next : Nat := 0
  sent : List IxtSend := []
deriving DecidableEq, Repr

/-- `ixt_init` (src/osip2/osip.c:132-151); `now` is the clock. -/
def ixt_init (id : Nat) (now : TimeVal) : Ixt :=
  { id := id, interval := DEFAULT_T1, start := add_gettimeofday now (DEFAULT_T1 + 10), counter := 10 }

/-- `osip_start_200ok_retransmissions` (src/osip2/osip.c:161-177) with `osip_add_ixt` (121-130),
which puts the entry at the front. `cloned` is what `osip_message_clone` left in `msg2xx`: a copy,
or NULL when it fails. The destination is that of `osip_response_get_destination` (32-77). -/
def start_200ok (w : IxtWorld) (now : TimeVal) (dialog : Option Nat) (msg200ok : Msg)
    (cloned : Option Msg) (sock : Int) : IxtWorld :=
  let ixt := ixt_init w.next now
  let d := osip_response_get_destination msg200ok
  { w with list := { ixt with dialog := dialog, msg2xx := cloned, sock := sock
                              dest := d.1, port := d.2 } :: w.list
           next := w.next + 1 }

/-- `osip_start_ack_retransmissions` (src/osip2/osip.c:179-195). -/
def start_ack (w : IxtWorld) (now : TimeVal) (dialog : Option Nat) (cloned : Option Msg)
    (dest : Option Str) (port sock : Int) : IxtWorld :=
  let ixt := ixt_init w.next now
  { w with list := { ixt with dialog := dialog, ack := cloned, dest := dest, port := port
                              sock := sock } :: w.list
           next := w.next + 1 }

/-- The loop of `osip_stop_200ok_retransmissions` (src/osip2/osip.c:208-220); `none`: NULL
dereference. Result: the dialog pointer and the list. -/
def stop200Loop (heap : Nat → Dialog) (ack : Msg) (number : Str) (l : List Ixt) (i : Nat) :
    Option (Option Nat × List Ixt) :=
  if h : i < l.length then
    let ixt := l[i]
    match ixt.msg2xx.bind (·.cseq) |>.bind (·.number) with
    | none => stop200Loop heap ack number l (i + 1)
    | some n =>
      match dialog_match_as_uas (ixt.dialog.map heap) ack with
      | none => none
      | some r =>
        if r = 0 ∧ n = number then some (ixt.dialog, l.eraseIdx i)
        else stop200Loop heap ack number l (i + 1)
  else some (none, l)
termination_by l.length - i

/-- `osip_stop_200ok_retransmissions` (src/osip2/osip.c:197-223). -/
def stop_200ok (w : IxtWorld) (heap : Nat → Dialog) (ack : Msg) : Option (Option Nat × IxtWorld) :=
  match ack.cseq.bind (·.number) with
  | none => some (none, w)
  | some number =>
    match stop200Loop heap ack number w.list 0 with
    | none => none
    | some (d, l) => some (d, { w with list := l })

/-- The loop of `osip_stop_retransmissions_from_dialog` (src/osip2/osip.c:232-240): `i--` after a
removal undoes the `i++`. -/
def stopDialogLoop (dialog : Option Nat) (l : List Ixt) (i : Nat) : List Ixt :=
  if h : i < l.length then
    if l[i].dialog = dialog then stopDialogLoop dialog (l.eraseIdx i) i
    else stopDialogLoop dialog l (i + 1)
  else l
termination_by l.length - i
decreasing_by
  · rw [List.length_eraseIdx_of_lt h]; omega
  · omega

/-- `osip_stop_retransmissions_from_dialog` (src/osip2/osip.c:225-242). -/
def stop_from_dialog (w : IxtWorld) (dialog : Option Nat) : IxtWorld :=
  { w with list := stopDialogLoop dialog w.list 0 }

/-- `ixt_retransmit` (src/osip2/osip.c:244-258). -/
def ixt_retransmit (x : Ixt) (current : TimeVal) : Ixt × List IxtSend :=
  if timerGt current x.start then
    let interval := x.interval * 2
    let interval := if interval > DEFAULT_T2 then DEFAULT_T2 else interval
    let send (m : Msg) : IxtSend := ⟨x.id, current, m, x.dest, x.port, x.sock⟩
    let s := match x.ack with
      | some a => [send a]
      | none => match x.msg2xx with
        | some m => [send m]
        | none => []
    ({ x with interval := interval, start := add_gettimeofday x.start interval
              counter := x.counter - 1 }, s)
  else (x, [])

/-- The loop of `osip_retransmissions_execute` (src/osip2/osip.c:269-278). -/
def executeLoop (current : TimeVal) (l : List Ixt) (i : Nat) (sent : List IxtSend) :
    List Ixt × List IxtSend :=
  if h : i < l.length then
    let r := ixt_retransmit l[i] current
    if r.1.counter = 0 then executeLoop current ((l.set i r.1).eraseIdx i) i (sent ++ r.2)
    else executeLoop current (l.set i r.1) (i + 1) (sent ++ r.2)
  else (l, sent)
termination_by l.length - i
decreasing_by
  · rw [List.length_eraseIdx_of_lt (by simpa using h)]; simp; omega
  · simp; omega

/-- `osip_retransmissions_execute` (src/osip2/osip.c:260-280). -/
def retransmissions_execute (w : IxtWorld) (current : TimeVal) : IxtWorld :=
  let r := executeLoop current w.list 0 w.sent
  { w with list := r.1, sent := r.2 }

/-- A call of one of the functions above. -/
inductive IxtOp
  | start200 (now : TimeVal) (dialog : Option Nat) (msg : Msg) (cloned : Option Msg) (sock : Int)
  | startAck (now : TimeVal) (dialog : Option Nat) (cloned : Option Msg) (dest : Option Str)
      (port sock : Int)
  | stop200 (heap : Nat → Dialog) (ack : Msg)
  | stopDialog (dialog : Option Nat)
  | execute (current : TimeVal)

/-- The effect of a call; `none`: NULL dereference. -/
def IxtOp.apply (w : IxtWorld) : IxtOp → Option IxtWorld
  | start200 now d m c s => some (start_200ok w now d m c s)
  | startAck now d c dest p s => some (start_ack w now d c dest p s)
  | stop200 heap a => (stop_200ok w heap a).map (·.2)
  | stopDialog d => some (stop_from_dialog w d)
  | execute c => some (retransmissions_execute w c)

/-- The effect of a history of calls. -/
def IxtWorld.run (w : IxtWorld) : List IxtOp → Option IxtWorld
  | [] => some w
  | op :: ops => (op.apply w).bind (·.run ops)

end Osip
