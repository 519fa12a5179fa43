import Verif.Match.PropsRetrans

/-!
# Concrete stacks: non-vacuity of C17-C22 and the witnesses of the violations
-/

namespace Osip

namespace Ex

/-- A stack obtained by operations on an empty one satisfies something. -/
theorem stack_exists (ops : List SOp) {P : Stack → Prop} [DecidablePred P]
    (h : (({} : Stack).run ops).any (fun s => decide (P s)) = true) : ∃ s, StackReach s ∧ P s := by
  cases hg : ({} : Stack).run ops with
  | none => simp [hg] at h
  | some s => exact ⟨s, ⟨ops, hg⟩, by simpa [hg] using h⟩

/-- A Via without a branch, as of RFC 2543. -/
def oldVia : Via :=
  { version := some "2.0".toList, protocol := some "UDP".toList, host := some "10.0.0.1".toList }

/-- An RFC 2543 request. -/
def oldRequest (method : String) : Msg := { request "UDP" method with vias := [oldVia] }

def otherVia : Via :=
  { via "UDP" with via_params := [⟨"Branch".toList, some "z9hG4bK777".toList⟩] }
def otherInvite : Msg := { request "UDP" "INVITE" with vias := [otherVia] }
def ack : Msg := request "UDP" "ACK"

end Ex

open Ex

/-- C17-C22 are about non-trivial stacks: two INVITEs with different branches, an outgoing OPTIONS;
the ACK is found to belong to the first INVITE, the response to OPTIONS to the client
transaction. -/
example : ∃ s, StackReach s ∧
    (s.ids = [1, 2, 3] ∧ s.ists.length = 2 ∧ s.nicts.length = 1 ∧
     ((osip_find_transaction s ⟨true, otherInvite, 0⟩).map (·.map (·.transactionid))
        = some (some 2)) ∧
     ((osip_find_transaction s ⟨true, ack, 0⟩).map (·.map (·.transactionid)) = some (some 1)) ∧
     ((osip_find_transaction s ⟨true, response 200 "UDP" "OPTIONS", 0⟩).map
        (·.map (·.transactionid)) = some (some 3)) ∧
     ((osip_find_transaction s ⟨true, response 200 "UDP" "INVITE", 0⟩).map
        (·.map (·.transactionid)) = some none) ∧
     (osip_remove_transaction s .IST 1).1.ids = [2, 3] ∧
     (osip_remove_transaction s .IST 3).2 = OSIP_UNDEFINED_ERROR) :=
  stack_exists [.receive (request "UDP" "INVITE") t0 t0, .receive otherInvite t0 t0,
    .receive (request "UDP" "INVITE") t0 t0, .receive ack t0 t0,
    .create ⟨false, request "UDP" "OPTIONS", 0⟩ t0 t0] (by decide +kernel)

/-- The hypotheses of `c19_request_matching` can be met. -/
example : IsBranch (via "UDP") "z9hG4bK776".toList ∧ Magic "z9hG4bK776".toList ∧
    IsBranch otherVia "z9hG4bK777".toList :=
  ⟨⟨[], _, [], rfl, by simp, by decide, rfl⟩, ⟨"776".toList, by decide⟩,
    ⟨[], _, [], rfl, by simp, by decide, rfl⟩⟩

/-- **C20 does not hold for requests without a magic-cookie branch.** Two copies of the same
RFC 2543 INVITE received before the first is executed create two transactions: the To header of the
request is only compared with that of the request the transaction executed. -/
theorem c20_violated : ∃ (m : Msg) (n1 n2 : TimeVal) (s1 s2 : Stack),
    ({} : Stack).step (.receive m n1 n2) = some s1 ∧ s1.step (.receive m n1 n2) = some s2 ∧
    s1.ids = [1] ∧ s2.ids = [1, 2] := by
  have h : ((({} : Stack).step (.receive (oldRequest "INVITE") t0 t0)).any fun s1 =>
      decide (s1.ids = [1]) && (s1.step (.receive (oldRequest "INVITE") t0 t0)).any fun s2 =>
        decide (s2.ids = [1, 2])) = true := by decide +kernel
  rw [Option.any_eq_true] at h
  obtain ⟨s1, h1, h⟩ := h
  rw [Bool.and_eq_true, decide_eq_true_eq, Option.any_eq_true] at h
  obtain ⟨h2, s2, h3, h4⟩ := h
  exact ⟨_, t0, t0, s1, s2, h1, h3, h2, by simpa using h4⟩

/-- The second copy is recognised once the first has been executed (`c20_rfc2543_partial`). -/
example : ∃ s, StackReach s ∧ s.ids = [1] ∧ (s.ists.map (·.w.queue.length)) = [1] :=
  stack_exists [.receive (oldRequest "INVITE") t0 t0, .act 1 (.exec 0 t0 t0),
    .receive (oldRequest "INVITE") t0 t0] (by decide +kernel)

/-- **C62 does not hold for an ACK without To header.** One such ACK, following an RFC 2543 INVITE
with the same Call-ID, makes the lookup read through the NULL To header. Both messages pass the
checks made when the event is built. -/
theorem c62_violated : ∃ (s : Stack) (evt : MsgEv), StackReach s ∧ evtAllowed evt.m = true ∧
    evt.incoming = true ∧ (∀ c, evt.m.cseq = some c → c.method.isSome = true) ∧
    osip_find_transaction s evt = none := by
  have h := stack_exists [.receive (oldRequest "INVITE") t0 t0]
    (P := fun s => osip_find_transaction s ⟨true, { oldRequest "ACK" with to := none }, 0⟩ = none)
    (by decide +kernel)
  obtain ⟨s, h1, h2⟩ := h
  refine ⟨s, _, h1, by decide, rfl, ?_, h2⟩
  intro c hc
  simp only [oldRequest, request, Option.some.injEq] at hc
  subst hc
  rfl

end Osip
