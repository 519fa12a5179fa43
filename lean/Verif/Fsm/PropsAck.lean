import Verif.Fsm.PropsIct

/-!
# The ACK for a 3xx-6xx response: C23
-/

namespace Osip

/-- **C23** (every INVITE and response). The ACK the client transaction builds has method ACK, the
Request-URI, the SIP version, the top Via and only that one, and the Route headers of the INVITE,
the To of the response with its tag, and CSeq method ACK. It has the credentials of the INVITE
unless the response is a 401 or 407, and nothing else but From, Call-ID and CSeq number.
Missing: RFC 3261 17.1.1.3 takes From, Call-ID and the CSeq number from the INVITE, the code takes
them from the response (`c23_violated`); they agree when the response copied them, see
`c23_ack_of_valid_response`. -/
theorem c23_ack_partial {orig resp a : Msg} (h : ict_create_ack orig resp = some a) :
    a.sip_method = some "ACK".toList ∧ a.status_code = 0 ∧ a.req_uri = orig.req_uri ∧
    a.sip_version = orig.sip_version ∧ (∃ v, orig.vias.head? = some v ∧ a.vias = [v]) ∧
    a.routes = orig.routes ∧ a.to = resp.to ∧ a.cseq.bind (·.method) = some "ACK".toList ∧
    a.from_ = resp.from_ ∧ a.call_id = resp.call_id ∧
    a.cseq.bind (·.number) = resp.cseq.bind (·.number) ∧
    a.authorizations = (if resp.status_code = 401 ∨ resp.status_code = 407 then []
      else orig.authorizations) ∧
    a.proxy_authorizations = (if resp.status_code = 401 ∨ resp.status_code = 407 then []
      else orig.proxy_authorizations) ∧
    a.record_routes = [] ∧ a.contacts = [] ∧ a.reason_phrase = none := by
  obtain ⟨f, t, c, q, u, v, vs, h1, h2, h3, h4, h5, h6, rfl⟩ := create_ack_eq h
  simp only [h1, h2, h3, h4, h5, h6, Option.bind_some, List.head?_cons, true_and, and_true]
  refine ⟨⟨v, rfl, rfl⟩, ?_, ?_⟩ <;> grind

/-- **C23** (a response that copied From, Call-ID and CSeq number of the INVITE, as RFC 3261
8.2.6.2 requires): the ACK is the one of RFC 3261 17.1.1.3. -/
theorem c23_ack_of_valid_response {orig resp a : Msg} (h : ict_create_ack orig resp = some a)
    (hf : resp.from_ = orig.from_) (hc : resp.call_id = orig.call_id)
    (hq : resp.cseq.bind (·.number) = orig.cseq.bind (·.number)) :
    a.sip_method = some "ACK".toList ∧ a.req_uri = orig.req_uri ∧
    (∃ v, orig.vias.head? = some v ∧ a.vias = [v]) ∧ a.from_ = orig.from_ ∧ a.to = resp.to ∧
    a.call_id = orig.call_id ∧ a.routes = orig.routes ∧
    a.cseq.bind (·.number) = orig.cseq.bind (·.number) ∧
    a.cseq.bind (·.method) = some "ACK".toList := by
  obtain ⟨h1, -, h3, -, h5, h6, h7, h8, h9, h10, h11, -⟩ := c23_ack_partial h
  exact ⟨h1, h3, h5, h9.trans hf, h7, h10.trans hc, h6, h11.trans hq, h8⟩

/-- An INVITE with two Via headers, a Route and credentials, and its 486 and 407. -/
def Ex.invite2 : Msg := { Ex.invite with
  vias := [Ex.via "UDP", Ex.via "TCP"], routes := [Ex.from1], authorizations := ["x".toList] }

example : (ict_create_ack Ex.invite2 (Ex.response 486 "UDP" "INVITE")).map
      (fun a => (a.vias.length, a.routes, a.authorizations)) =
    some (1, [Ex.from1], ["x".toList]) := by decide +kernel
example : (ict_create_ack Ex.invite2 (Ex.response 407 "UDP" "INVITE")).map
      (fun a => (a.vias.length, a.authorizations)) = some (1, []) := by decide +kernel

/-- A 486 whose Call-ID is not the one of the INVITE. -/
def Ex.otherCallId : Msg := { Ex.response 486 "UDP" "INVITE" with
  call_id := some { number := some "other".toList } }

/-- **C23 is violated**: a client transaction that receives a 486 with the right Via and CSeq and
another Call-ID sends an ACK with that Call-ID instead of the one of its INVITE. -/
theorem c23_violated : ∃ w, Reach .ICT w ∧ (w.tr.state = .ICT_COMPLETED ∧
    ∃ orig ack, w.tr.orig_request = some orig ∧ ack ∈ sends w.trace ∧
      ack.m.sip_method = some "ACK".toList ∧ ack.m.call_id ≠ orig.m.call_id) := by
  obtain ⟨w, h1, h2, h3, h4⟩ : ∃ w, Reach .ICT w ∧ (w.tr.state = .ICT_COMPLETED ∧
      (w.tr.orig_request.map (·.m.call_id)) = some (some { number := some "c1".toList }) ∧
      ((sends w.trace).getLast?.map (fun r => (r.m.sip_method, r.m.call_id))) =
        some (some "ACK".toList, some { number := some "other".toList })) :=
    Ex.reach_exists Ex.invite [.outgoing Ex.invite, Ex.x, .incoming Ex.otherCallId, Ex.x]
      (by decide +kernel)
  refine ⟨w, h1, h2, ?_⟩
  cases ho : w.tr.orig_request with
  | none => simp [ho] at h3
  | some o =>
    cases hl : (sends w.trace).getLast? with
    | none => simp [hl] at h4
    | some a =>
      simp [ho] at h3
      simp [hl] at h4
      refine ⟨o, a, rfl, List.mem_of_getLast? hl, h4.1, ?_⟩
      rw [h3, h4.2]
      decide

end Osip
