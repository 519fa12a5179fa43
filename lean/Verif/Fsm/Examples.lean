import Verif.Fsm.Spec

/-!
# Concrete messages and runs, used by the `example`s beside the theorems
-/

namespace Osip.Ex

def t0 : TimeVal := ⟨1000, 0⟩
def t1 : TimeVal := ⟨1001, 0⟩
def t2 : TimeVal := ⟨1100, 0⟩

def uri : Uri := { scheme := some "sip".toList, username := some "bob".toList,
                   host := some "example.com".toList }
def from1 : From := { url := some uri, gen_params := [⟨"tag".toList, some "a1".toList⟩] }
def to1 : From := { url := some uri }
def to2 : From := { url := some uri, gen_params := [⟨"tag".toList, some "b2".toList⟩] }
def via (proto : String) : Via :=
  { version := some "2.0".toList, protocol := some proto.toList, host := some "10.0.0.1".toList,
    via_params := [⟨"branch".toList, some "z9hG4bK776".toList⟩] }

def request (proto method : String) : Msg :=
  { sip_version := some "SIP/2.0".toList, sip_method := some method.toList, req_uri := some uri,
    vias := [via proto], from_ := some from1, to := some to1,
    call_id := some { number := some "c1".toList },
    cseq := some { method := some method.toList, number := some "7".toList } }

def response (code : Int) (proto method : String) : Msg :=
  { sip_version := some "SIP/2.0".toList, status_code := code,
    vias := [via proto], from_ := some from1, to := some to2,
    call_id := some { number := some "c1".toList },
    cseq := some { method := some method.toList, number := some "7".toList } }

/-- The world of a new transaction for a request, if set-up succeeds. -/
def start (k : Kind) (m : Msg) : Option World :=
  match transactionInit k t0 t0 m with
  | some (.ok t) => some (World.init t)
  | _ => none

/-- A run of a new transaction. -/
def go (k : Kind) (m : Msg) (ops : List Op) : Option World := (start k m).bind (·.run ops)

theorem reach_of_go {k : Kind} {m : Msg} {ops : List Op} {w : World} (h : go k m ops = some w) :
    Reach k w := by
  unfold go start at h
  split at h
  · next t ht => exact ⟨t0, t0, m, t, ops, ht, h, fun _ _ => trivial⟩
  · simp at h

/-- There is a reachable world with a property, shown by running it. -/
theorem reach_exists {k : Kind} (m : Msg) (ops : List Op) {P : World → Prop} [DecidablePred P]
    (h : (go k m ops).any (fun w => decide (P w)) = true) : ∃ w, Reach k w ∧ P w := by
  cases hg : go k m ops with
  | none => simp [hg] at h
  | some w => exact ⟨w, reach_of_go hg, by simpa [hg] using h⟩

/-- As `reach_exists`, keeping the request and that timer events come from the timer loop. -/
theorem reachFrom_exists {k : Kind} {R : Msg → Prop} (m : Msg) (hR : R m) (ops : List Op)
    (ho : ∀ o ∈ ops, TimersInOrder o) {P : World → Prop}
    [DecidablePred P] (h : (go k m ops).any (fun w => decide (P w)) = true) :
    ∃ w, ReachFrom R TimersInOrder k w ∧ P w := by
  cases hg : go k m ops with
  | none => simp [hg] at h
  | some w =>
    refine ⟨w, ?_, by simpa [hg] using h⟩
    unfold go start at hg
    split at hg
    · next t ht => exact ⟨t0, t0, m, t, ops, hR, ht, hg, ho⟩
    · simp at hg

/-- Successful execution of the oldest event. -/
def x : Op := .exec 0 t1 t1
/-- Execution with a failing transport. -/
def xf : Op := .exec (-1) t1 t1

def invite := request "UDP" "INVITE"
def inviteTcp := request "TCP" "INVITE"
def options := request "UDP" "OPTIONS"

/-- An INVITE client transaction answered by 180, 486, 486 again. -/
def ictRun : List Op :=
  [.outgoing invite, x, .incoming (response 180 "UDP" "INVITE"), x,
   .incoming (response 486 "UDP" "INVITE"), x, .incoming (response 486 "UDP" "INVITE"), x]

example : (go .ICT invite ictRun).map (fun w => (w.tr.state, (sends w.trace).length)) =
    some (.ICT_COMPLETED, 3) := by decide +kernel

end Osip.Ex
