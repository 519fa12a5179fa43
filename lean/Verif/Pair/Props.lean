import Verif.Pair.Inv

/-!
# What the two programs know about each other: C107 (non-INVITE), C108 (INVITE)
-/

set_option autoImplicit false

namespace Osip

/-! ## Runs for the examples -/

/-- A run of a client transaction and its peer. -/
def Ex.pair (k : Kind) (m : Msg) (acts : List PairAct) : Option Pair :=
  match transactionInit k Ex.t0 Ex.t0 m with
  | some (.ok t) => (Pair.mk (World.init t) none).run acts
  | _ => none

theorem Ex.preach_exists {k : Kind} (m : Msg) (acts : List PairAct) {P : Pair → Prop} [DecidablePred P]
    (h : (Ex.pair k m acts).any (fun p => decide (P p)) = true) : ∃ p, PReach k p ∧ P p := by
  cases hg : Ex.pair k m acts with
  | none => simp [hg] at h
  | some p =>
    refine ⟨p, ?_, by simpa [hg] using h⟩
    unfold Ex.pair at hg
    split at hg
    · next t ht => exact ⟨_, _, _, t, acts, ht, hg⟩
    · simp at hg

/-- OPTIONS is sent twice, arrives twice; 100 and 200 are sent, the 200 overtakes the 100 and arrives twice. -/
def Ex.optionsPair : List PairAct :=
  [.client (.outgoing Ex.options), .client Ex.x, .client (.timer .TIMEOUT_E), .client Ex.x, .toServer 1 Ex.t0 Ex.t0, .server Ex.x,
   .toServer 0 Ex.t0 Ex.t0, .server Ex.x, .server (.outgoing (Ex.response 100 "UDP" "OPTIONS")), .server Ex.x,
   .server (.outgoing (Ex.response 200 "UDP" "OPTIONS")), .server Ex.x, .toClient 1, .client Ex.x, .toClient 1, .client Ex.x, .toClient 0, .client Ex.x]

/-! ## C107 -/

/-- **C107** (every run of the two sides). The program of the server is told about at most one request, and that is the request the client
transaction holds and sent. -/
theorem c107_request {p : Pair} (h : PReach .NICT p) {w : World} (hw : p.server = some w) :
    w.trace.countP (Eff.isCbIn nistNew) ≤ 1 ∧
    ∀ c r, (c, some r) ∈ callbacks w.trace → c ∈ nistNew →
      ∃ q, p.client.tr.orig_request = some q ∧ q ∈ sends p.client.trace ∧ r.m = q.m := by
  have hi := pinv_reach (.inr rfl) h
  have hr := (hi.server w hw).1
  refine ⟨c13_request_reported_once hr, ?_⟩
  intro c r hc hn
  obtain ⟨s, hs, hm⟩ := pinv_request hi hw (reach_nistNew hr c r hc hn)
  exact ⟨s, (reach_nictSends hi.client s hs).1, hs, hm.symm⟩

/-- **C107** (every run of the two sides). A response the program of the client is told about was handed over by the program of the server,
which had been told about the request before. -/
theorem c107_response {p : Pair} (h : PReach .NICT p) {c : Cb} {r : Ref} (hc : (c, some r) ∈ callbacks p.client.trace)
    (hn : c ∈ responseCbs .NICT) :
    ∃ w, p.server = some w ∧ w.trace.countP (Eff.isCbIn nistNew) = 1 ∧
      ∃ s ∈ sends w.trace, s.m = r.m ∧ Submitted w.log s := by
  have hi := pinv_reach (.inr rfl) h
  obtain ⟨ha, -, -⟩ := reach_nictResponse hi.client c r hc hn
  obtain ⟨w, hw, s, hs, hm⟩ := pinv_response hi ha
  have hr := (hi.server w hw).1
  refine ⟨w, hw, ?_, s, hs, hm, reach_serverSends (.inr rfl) hr s hs⟩
  obtain ⟨h1, h2⟩ := reach_nistSends hr
  rw [h1, if_neg]
  intro hp
  have hl := h2.last (by simp [hp])
  rw [((reach_nistInv hr).pre hp).2, eq_comm, List.getLast?_eq_none_iff] at hl
  rw [hl] at hs
  simp at hs

/-- **C107** (every run of the two sides). The two programs agree about the outcome: when the client is told a final response, every final
response the server ever sent, before or after, has the same content. -/
theorem c107_agreement {p : Pair} (h : PReach .NICT p) {c : Cb} {r : Ref} (hc : (c, some r) ∈ callbacks p.client.trace)
    (hn : c ∈ finalCbs .NICT) {w : World} (hw : p.server = some w) {s : Ref} (hs : s ∈ sends w.trace) (hf : s.m.isStatus 1 = false) :
    s.m = r.m := by
  have hi := pinv_reach (.inr rfl) h
  obtain ⟨ha, -, hst⟩ := reach_nictResponse hi.client c r hc (by simp [responseCbs, hn])
  obtain ⟨w', hw', s', hs', hm⟩ := pinv_response hi ha
  rw [hw] at hw'
  simp at hw'
  subst hw'
  rw [finals_equal (reach_nistSends (hi.server w hw).1).2.one hs' hs (by rw [hm]; exact hst.1 hn) hf, hm]

example : ∃ p, PReach .NICT p ∧ (callbacks p.client.trace = [(.NICT_OPTIONS_SENT, some ⟨0, Ex.options⟩),
      (.NICT_REQUEST_SENT_AGAIN, some ⟨0, Ex.options⟩), (.NICT_STATUS_2XX_RECEIVED, some ⟨3, Ex.response 200 "UDP" "OPTIONS"⟩)] ∧
    (p.server.map fun w => callbacks w.trace) = some [(.NIST_OPTIONS_RECEIVED, some ⟨0, Ex.options⟩),
      (.NIST_STATUS_1XX_SENT, some ⟨4, Ex.response 100 "UDP" "OPTIONS"⟩), (.NIST_STATUS_2XX_SENT, some ⟨6, Ex.response 200 "UDP" "OPTIONS"⟩)]) :=
  Ex.preach_exists Ex.options Ex.optionsPair (by decide +kernel)

/-! ## C108 -/

/-- **C108** (every run of the two sides). The program of the server is told about at most one INVITE, and that is the INVITE the client
transaction holds and sent. -/
theorem c108_invite {p : Pair} (h : PReach .ICT p) {w : World} (hw : p.server = some w) :
    w.trace.countP (Eff.isCbIn [.IST_INVITE_RECEIVED]) ≤ 1 ∧
    ∀ r, (.IST_INVITE_RECEIVED, some r) ∈ callbacks w.trace →
      ∃ q, p.client.tr.orig_request = some q ∧ q ∈ sends p.client.trace ∧ r.m = q.m := by
  have hi := pinv_reach (.inl rfl) h
  have hr := (hi.server w hw).1
  refine ⟨c10_invite_reported_once hr, ?_⟩
  intro r hc
  obtain ⟨ha, hm⟩ := (reach_istNew hr _ r hc).1 rfl
  obtain ⟨s, hs, hsm⟩ := pinv_request hi hw ha
  rcases (reach_ictSends hi.client s hs).2 with ⟨h1, -⟩ | ⟨-, h1⟩
  · exact ⟨s, h1, hs, hsm.symm⟩
  · rw [hsm, hm] at h1
    exact absurd h1 (by decide)

/-- **C108** (every run of the two sides). A response the program of the client is told about was handed over by the program of the server,
which had been told about the INVITE before. -/
theorem c108_response {p : Pair} (h : PReach .ICT p) {c : Cb} {r : Ref} (hc : (c, some r) ∈ callbacks p.client.trace)
    (hn : c ∈ responseCbs .ICT) :
    ∃ w, p.server = some w ∧ w.trace.countP (Eff.isCbIn [.IST_INVITE_RECEIVED]) = 1 ∧
      ∃ s ∈ sends w.trace, s.m = r.m ∧ Submitted w.log s := by
  have hi := pinv_reach (.inl rfl) h
  obtain ⟨ha, -, -⟩ := reach_ictResponse hi.client c r hc hn
  obtain ⟨w, hw, s, hs, hm⟩ := pinv_response hi ha
  have hr := (hi.server w hw).1
  refine ⟨w, hw, reach_istTold hr ?_, s, hs, hm, reach_serverSends (.inl rfl) hr s hs⟩
  intro hp
  have hl := (reach_istSends hr).2.1 (by simp [hp])
  rw [((reach_istInv hr).pre hp).2, eq_comm, List.getLast?_eq_none_iff] at hl
  rw [hl] at hs
  simp at hs

/-- **C108** (every run of the two sides). The two programs agree about the outcome: when the client is told a final response, every final
response the server ever sent, before or after, has the same content. -/
theorem c108_agreement {p : Pair} (h : PReach .ICT p) {c : Cb} {r : Ref} (hc : (c, some r) ∈ callbacks p.client.trace)
    (hn : c ∈ finalCbs .ICT) {w : World} (hw : p.server = some w) {s : Ref} (hs : s ∈ sends w.trace) (hf : s.m.isStatus 1 = false) :
    s.m = r.m := by
  have hi := pinv_reach (.inl rfl) h
  obtain ⟨ha, -, hst⟩ := reach_ictResponse hi.client c r hc (by simp [responseCbs, hn])
  obtain ⟨w', hw', s', hs', hm⟩ := pinv_response hi ha
  rw [hw] at hw'
  simp at hw'
  subst hw'
  rw [finals_equal (fun pre r post h1 h2 => (c12_one_final (hi.server w hw).1 h1 h2).1) hs' hs (by rw [hm]; exact hst.1 hn) hf, hm]

/-- **C108** (every run of the two sides). When the program of the server is told about an ACK, the program of the client was told the final
response of the server, and the ACK is one for that response - or it was told about a transport error.
Missing: without a transport error being reported; see `c108_violated`. -/
theorem c108_ack_partial {p : Pair} (h : PReach .ICT p) {w : World} (hw : p.server = some w) {a : Ref}
    (hc : (.IST_ACK_RECEIVED, some a) ∈ callbacks w.trace) :
    (∃ c r s, (c, some r) ∈ callbacks p.client.trace ∧ c ∈ final3456 ∧ AcksResponse a.m r.m ∧ s ∈ sends w.trace ∧ s.m = r.m ∧
      s.m.isStatus 1 = false) ∨ (∃ k i, Eff.tpErr k i ∈ p.client.trace) := by
  have hi := pinv_reach (.inl rfl) h
  have hr := (hi.server w hw).1
  obtain ⟨ha, hreq, hm⟩ := (reach_istNew hr _ a hc).2 rfl
  obtain ⟨s, hs, hsm⟩ := pinv_request hi hw ha
  have ht := reach_ackTold hi.client s hs (by rw [hsm, hm])
  simp only [Told, List.any_eq_true, Bool.or_eq_true] at ht
  obtain ⟨e, he, ht | ht⟩ := ht
  · left
    cases e <;> simp only [Eff.isCbIn, Bool.false_eq_true, List.contains_eq_mem, decide_eq_true_eq] at ht
    rename_i c r
    obtain ⟨h1, h2, h3⟩ := c04_acked_and_reported_once hi.client
    obtain ⟨pre, post, hpp⟩ := List.append_of_mem he
    obtain ⟨resp, ack, host, port, rfl, hack, hacks⟩ := h2 pre c r post hpp ht
    have hsend : ack ∈ sends p.client.trace := by
      rw [hpp, sends_append]
      refine List.mem_append_left _ ?_
      simp only [sends, List.mem_filterMap]
      exact ⟨_, hack, rfl⟩
    have heq := h3 s hs ack hsend (by rw [hsm, hm]) hacks.2.1
    subst heq
    have hcb : (c, some resp) ∈ callbacks p.client.trace := by
      simp only [callbacks, List.mem_filterMap]
      exact ⟨_, he, rfl⟩
    have hfin : c ∈ finalCbs .ICT := by
      simp only [final3456, List.mem_cons, List.not_mem_nil, or_false] at ht
      rcases ht with rfl | rfl | rfl | rfl <;> decide
    obtain ⟨har, -, hst⟩ := reach_ictResponse hi.client c resp hcb (by simp [responseCbs, hfin])
    obtain ⟨w', hw', s', hs', hm'⟩ := pinv_response hi har
    rw [hw] at hw'
    simp at hw'
    subst hw'
    exact ⟨c, resp, s', hcb, ht, hsm ▸ hacks, hs', hm', by rw [hm']; exact hst.1 hfin⟩
  · right
    cases e <;> simp only [Eff.isTpErr, Bool.false_eq_true] at ht
    exact ⟨_, _, he⟩

/-- INVITE, 180 and 486; the 486 overtakes the 180; the callback that sends the ACK returns `s`. -/
def Ex.invitePair (s : Int) : List PairAct :=
  [.client (.outgoing Ex.invite), .client Ex.x, .toServer 0 Ex.t0 Ex.t0, .server Ex.x,
   .toServer 0 Ex.t0 Ex.t0, .server Ex.x, .server (.outgoing (Ex.response 180 "UDP" "INVITE")), .server Ex.x,
   .server (.outgoing (Ex.response 486 "UDP" "INVITE")), .server Ex.x, .toClient 1, .client (.exec s Ex.t1 Ex.t1), .toClient 0, .client Ex.x,
   .toServer 1 Ex.t0 Ex.t0, .server Ex.x]

example : ∃ p, PReach .ICT p ∧ ((callbacks p.client.trace).map (·.1) = [.ICT_INVITE_SENT, .ICT_STATUS_4XX_RECEIVED, .ICT_ACK_SENT] ∧
    (p.server.map fun w => (callbacks w.trace).map (·.1)) = some [.IST_INVITE_RECEIVED, .IST_INVITE_RECEIVED_AGAIN, .IST_STATUS_1XX_SENT,
      .IST_STATUS_4XX_SENT, .IST_ACK_RECEIVED]) :=
  Ex.preach_exists Ex.invite (Ex.invitePair 0) (by decide +kernel)

/-- **C108 is violated**: the transport callback returns 1 for the ACK (a connection is being opened, say) and the ACK arrives. The program of
the server is told that its 486 was acknowledged; the program of the client is told about a transport error only, never about a response. -/
theorem c108_violated : ∃ p, PReach .ICT p ∧ ((callbacks p.client.trace).map (·.1) = [.ICT_INVITE_SENT] ∧
    p.client.tr.state = .ICT_TERMINATED ∧
    (p.server.map fun w => ((callbacks w.trace).map (·.1), w.tr.state)) = some ([.IST_INVITE_RECEIVED, .IST_INVITE_RECEIVED_AGAIN,
      .IST_STATUS_1XX_SENT, .IST_STATUS_4XX_SENT, .IST_ACK_RECEIVED], .IST_CONFIRMED)) :=
  Ex.preach_exists Ex.invite (Ex.invitePair 1) (by decide +kernel)

end Osip
