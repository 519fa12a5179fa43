import Verif.Ixt.Props
import Verif.Dialog.Examples

/-!
# Concrete runs of the 2xx retransmissions
-/

set_option autoImplicit false

namespace Osip.IxtEx
open DialogEx

def sec (n : Int) : TimeVal := ⟨100 + n, 0⟩

/-- The callee's dialogs after a forked INVITE reached it twice: same Call-ID and From tag,
different To tags (dialogs 1 and 2). -/
def heap (p : Nat) : Dialog :=
  if p = 1 then callee else { callee with local_tag := some "t2".toList }

def ok1 : Msg := answer 200
def ok2 : Msg := { answer 200 with to := some (party "b.org" [tag "t2"]) }

/-- The ACK for a 2xx with this To tag. -/
def ack (totag : String) : Msg :=
  { bye totag with sip_method := some "ACK".toList, cseq := some { cs with method := some "ACK".toList } }

/-- Sixty executions, one every second. -/
def ticks : List IxtOp := (List.range 60).map (fun n : Nat => .execute (sec (n + 1)))

def whole : Option IxtWorld := IxtWorld.run {} (.start200 (sec 0) (some 1) ok1 (some ok1) 3 :: ticks)

/-- Without an ACK the 2xx goes out ten times (at 1, 2, 4, 8, 12, … s) and is dropped. -/
example : (whole.map (fun w => (w.list.length, w.sent.map (fun s => s.time.sec - 100)))) =
    some (0, [1, 2, 4, 8, 12, 16, 20, 24, 28, 32]) := by decide +kernel

/-- The schedule theorem applies to that run. -/
example : ∃ w, whole = some w ∧ (w.sent.filter (·.id == 0)).length ≤ 10 := by
  have hs : whole.isSome = true := by decide +kernel
  obtain ⟨w, hw⟩ := Option.isSome_iff_exists.1 hs
  refine ⟨w, hw, (c30_schedule (pre := []) (w1 := {}) (now := sec 0) rfl hw (by decide) ?_).1⟩
  intro op hop
  simp only [ticks, List.mem_map] at hop
  obtain ⟨n, _, rfl⟩ := hop
  show TimeVal.Normal _
  simp [TimeVal.Normal, sec]

/-- Two 2xx of different INVITEs of one dialog: the ACK stops the one with its CSeq. -/
example : let other : Msg := { ok1 with cseq := some { cs with number := some "13".toList } }
    ((IxtWorld.run {} [.start200 (sec 0) (some 1) ok1 (some ok1) 3,
      .start200 (sec 0) (some 1) other (some other) 3, .stop200 heap (ack "t1")]).map
        (fun w => w.list.map (·.msg2xx))) = some [some other] := by decide +kernel

/-- The end of dialog 2 leaves the entries of dialog 1. -/
example : ((IxtWorld.run {} [.start200 (sec 0) (some 1) ok1 (some ok1) 3,
      .start200 (sec 0) (some 2) ok2 (some ok2) 3, .start200 (sec 0) (some 2) ok2 (some ok2) 3,
      .startAck (sec 0) (some 1) (some (ack "t1")) none 5060 3, .stopDialog (some 2)]).map
        (fun w => w.list.map (·.id))) = some [3, 0] := by decide +kernel

end IxtEx
open IxtEx DialogEx

/-- C30 fails: with two dialogs which differ only in their local tag (a forked INVITE reached this
side twice) the ACK of dialog 1 stops the 2xx of dialog 2, and that of dialog 1 goes on. -/
theorem c30_violated : ∃ (w w' : IxtWorld) (heap : Nat → Dialog) (m1 m2 ack : Msg) (t : From) (v : Str),
    IxtWorld.run {} [.start200 ⟨100, 0⟩ (some 1) m1 (some m1) 3,
      .start200 ⟨100, 0⟩ (some 2) m2 (some m2) 3] = some w ∧
    ack.to = some t ∧ HasTag t v ∧ (heap 1).local_tag = some v ∧ (heap 2).local_tag ≠ some v ∧
    stop_200ok w heap ack = some (some 2, w') ∧
    w'.list.map (·.dialog) = [some 1] := by
  refine ⟨(IxtWorld.run {} [.start200 ⟨100, 0⟩ (some 1) ok1 (some ok1) 3,
      .start200 ⟨100, 0⟩ (some 2) ok2 (some ok2) 3]).getD {},
    (IxtWorld.run {} [.start200 ⟨100, 0⟩ (some 1) ok1 (some ok1) 3]).getD {} |> (fun w => { w with next := 2 }),
    heap, ok1, ok2, ack "t1", party "b.org" [tag "t1"], "t1".toList, ?_, rfl, hasTag_ex _ _, ?_, ?_, ?_, ?_⟩
    <;> decide +kernel

end Osip
