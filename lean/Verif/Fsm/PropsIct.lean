import Verif.Fsm.Safe
import Verif.Fsm.Examples

/-!
# Properties of the INVITE client transaction: C04, C05, C06
-/

namespace Osip

/-- The callbacks announcing a 3xx-6xx response to the application. -/
def final3456 : List Cb := [.ICT_STATUS_3XX_RECEIVED, .ICT_STATUS_4XX_RECEIVED,
  .ICT_STATUS_5XX_RECEIVED, .ICT_STATUS_6XX_RECEIVED]

theorem ict3456Cb_mem (m : Msg) : ict3456Cb m ∈ final3456 := by
  unfold ict3456Cb final3456; repeat' split
  all_goals simp

theorem ict3456Cb_ne (m : Msg) : ict3456Cb m ≠ .ICT_STATUS_2XX_RECEIVED := by
  unfold ict3456Cb; repeat' split
  all_goals simp

/-! ## C04 -/

/-- The ACK belongs to the response: same To (with its tag), same Call-ID, same CSeq number. -/
def AcksResponse (ack resp : Msg) : Prop :=
  ack.isRequest = true ∧ ack.sip_method = some "ACK".toList ∧ ack.to = resp.to ∧
  ack.call_id = resp.call_id ∧ ack.cseq.map (·.number) = resp.cseq.map (·.number)

theorem create_ack_acks {o r a : Msg} (h : ict_create_ack o r = some a) : AcksResponse a r := by
  obtain ⟨f, t, c, q, u, v, vs, h1, h2, h3, h4, h5, h6, rfl⟩ := create_ack_eq h
  simp [AcksResponse, h2, h3, h4, Msg.isRequest]

/-- What C04 says about one position of the trace: a callback announcing a 3xx-6xx response carries
that response, and an ACK for it was handed to the transport before. -/
def AckFirst (pre : List Eff) (x : Eff) : Prop :=
  ∀ c r, x = .cb c r → c ∈ final3456 →
    ∃ resp ack h p, r = some resp ∧ .send ack h p ∈ pre ∧ AcksResponse ack.m resp.m

theorem ackFirst_trivial {pre : List Eff} {x : Eff} (h : x.isCbIn final3456 = false) :
    AckFirst pre x := by
  rintro c r rfl hc
  simp [Eff.isCbIn, hc] at h

theorem ackFirst_other {l e : List Eff} (h : e.countP (Eff.isCbIn final3456) = 0) :
    Always (fun pre x => AckFirst (l ++ pre) x) e :=
  always_of_forall (fun _ x hx => ackFirst_trivial (by
    rw [List.countP_eq_zero] at h; simpa using h x hx))

theorem ackFirst_exec {env t ev t' e r} (hk : t.ctx_type = .ICT) (l : List Eff)
    (he : osip_transaction_execute env t ev = some (t', e, r)) :
    Always (fun pre x => AckFirst (l ++ pre) x) e := by
  fsm_exec he hk hs ht
  any_goals
    refine ackFirst_other ?_
    simp [List.countP_append, List.countP_cons, Eff.isCbIn, final3456]
    done
  all_goals
    rename_i hresp _ _ _ _ hca _ _ _ _
    rw [always_append]
    refine ⟨ackFirst_other (by simp), ?_⟩
    simp only [always_cons, always_nil, and_true, hresp]
    refine ⟨ackFirst_trivial rfl, ackFirst_trivial rfl, ?_, ackFirst_trivial rfl⟩
    rintro c r hx hc
    simp only [Eff.cb.injEq] at hx
    obtain ⟨rfl, rfl⟩ := hx
    exact ⟨_, ⟨_, _⟩, _, _, rfl, by simp; exact .inr ⟨rfl, rfl, rfl⟩, create_ack_acks hca⟩

/-- The number of 3xx-6xx announcements. -/
def AnnouncedOnce (t : Tr) (tr : List Eff) : Prop :=
  tr.countP (Eff.isCbIn final3456) ≤ 1 ∧
  (t.state = .ICT_PRE_CALLING ∨ t.state = .ICT_CALLING ∨ t.state = .ICT_PROCEEDING →
    tr.countP (Eff.isCbIn final3456) = 0)

theorem announcedOnce_exec {env t ev t' e r} (tr : List Eff) (hp : AnnouncedOnce t tr)
    (hk : t.ctx_type = .ICT)
    (he : osip_transaction_execute env t ev = some (t', e, r)) : AnnouncedOnce t' (tr ++ e) := by
  have hm := ict3456Cb_mem
  fsm_exec he hk hs ht
  any_goals (simpa [AnnouncedOnce, List.countP_append] using hp; done)
  all_goals simp only [AnnouncedOnce, hs] at hp ⊢
  all_goals count_cbs [hm]
  all_goals simp [-List.countP_eq_zero] at hp ⊢
  all_goals omega

/-- Every message sent is the INVITE or the ACK the transaction holds. -/
def SendsOwn (t : Tr) (tr : List Eff) : Prop :=
  ∀ r ∈ sends tr, t.orig_request = some r ∨ t.ack = some r

theorem sendsOwn_exec {env t ev t' e r} (tr : List Eff) (hp : SendsOwn t tr) (hi : IctInv t)
    (hk : t.ctx_type = .ICT)
    (he : osip_transaction_execute env t ev = some (t', e, r)) : SendsOwn t' (tr ++ e) := by
  obtain ⟨h1, h2, h3, h4, h5, h6, h7⟩ := hi
  fsm_exec he hk hs ht
  any_goals (simpa [SendsOwn] using hp; done)
  all_goals unfold SendsOwn at *
  all_goals simp [hs] at h2 h4
  all_goals simp [*] at hp ⊢
  all_goals grind

theorem reach_ictTrace {w : World} (h : Reach .ICT w) :
    Always AckFirst w.trace ∧ AnnouncedOnce w.tr w.trace ∧ SendsOwn w.tr w.trace := by
  have := reach_inv (k := .ICT) (P := fun t tr =>
    IctInv t ∧ Always AckFirst tr ∧ AnnouncedOnce t tr ∧ SendsOwn t tr) ?_ ?_ ?_ h
  · exact this.2
  · intro n1 n2 req t hi
    exact ⟨ictInv_init hi, by simp, by simp [AnnouncedOnce], by simp [SendsOwn]⟩
  · rintro t tr id ⟨h1, h2, h3, h4⟩
    refine ⟨h1, ?_, ?_, ?_⟩
    · rw [always_append]
      exact ⟨h2, ackFirst_other (by simp [Eff.isCbIn])⟩
    · simpa [AnnouncedOnce, List.countP_append, List.countP_cons, Eff.isCbIn] using h3
    · simpa [SendsOwn] using h4
  · rintro env t tr ev t' e r ⟨h1, h2, h3, h4⟩ hk hev he
    refine ⟨ictInv_exec h1 hk hev he, ?_, announcedOnce_exec tr h3 hk he,
      sendsOwn_exec tr h4 h1 hk he⟩
    rw [always_append]
    exact ⟨h2, ackFirst_exec hk tr he⟩

/-- **C04** (every history). At most one 3xx-6xx response is announced to the application as
such; when one is announced, an ACK for it (same To, Call-ID and CSeq number) has been handed to
the transport before; and every ACK ever sent is one and the same message. -/
theorem c04_acked_and_reported_once {w : World} (h : Reach .ICT w) :
    w.trace.countP (Eff.isCbIn final3456) ≤ 1 ∧
    (∀ pre c r post, w.trace = pre ++ .cb c r :: post → c ∈ final3456 →
      ∃ resp ack host port, r = some resp ∧ .send ack host port ∈ pre ∧
        AcksResponse ack.m resp.m) ∧
    (∀ a ∈ sends w.trace, ∀ b ∈ sends w.trace, a.m.sip_method = some "ACK".toList →
      b.m.sip_method = some "ACK".toList → a = b) := by
  obtain ⟨h1, h2, h3⟩ := reach_ictTrace h
  have hi := reach_ictInv h
  refine ⟨h2.1, fun pre c r post he hc => h1 pre _ post he c r rfl hc, ?_⟩
  intro a ha b hb hma hmb
  have key : ∀ a ∈ sends w.trace, a.m.sip_method = some "ACK".toList → w.tr.ack = some a := by
    intro a ha hma
    rcases h3 a ha with ho | ho
    · exfalso
      by_cases hs : w.tr.state = .ICT_PRE_CALLING
      · rw [(hi.pre hs).1] at ho; simp at ho
      · obtain ⟨r, hr, _, hm, _⟩ := hi.orig hs
        rw [hr] at ho
        simp only [Option.some.injEq] at ho
        subst ho
        rw [hm] at hma
        simp at hma
    · exact ho
  have := key a ha hma
  rw [key b hb hmb] at this
  simpa using this.symm

/-- **C04** (a retransmission of the response). In COMPLETED a 3xx-6xx response makes the
transaction hand the ACK it holds to the transport once more, and the application sees it as a
repetition. -/
theorem c04_retransmission {env : Env} {w : World} (h : Reach .ICT w)
    (hs : w.tr.state = .ICT_COMPLETED) {ev : Ev} (hev : EvOk ev) (ht : ev.type = .RCV_STATUS_3456XX)
    (hsend : env.send = 0) :
    ∃ ack t' e r, w.tr.ack = some ack ∧ ack.m.sip_method = some "ACK".toList ∧
      osip_transaction_execute env w.tr ev = some (t', e, r) ∧ t'.state = .ICT_COMPLETED ∧
      t'.ack = some ack ∧ sends e = [ack] ∧
      callbacks e = [(.ICT_STATUS_3456XX_RECEIVED_AGAIN, ev.sip), (.ICT_ACK_SENT_AGAIN, some ack)] := by
  have hi := reach_ictInv h
  obtain ⟨ack, hack⟩ := Option.isSome_iff_exists.1 (hi.ack hs)
  obtain ⟨t', e, r, he⟩ := exec_safe h env hev
  refine ⟨ack, t', e, r, hack, hi.isack _ hack, he, ?_⟩
  have hk := (reach_queue h).1
  have hs0 := hs
  have ht0 := ht
  fsm_exec he hk hs ht
  all_goals (first | (rw [hs] at hs0; simp at hs0; done) | (rw [ht] at ht0; simp at ht0; done) | skip)
  all_goals first
    | contradiction
    | (rw [hs0, ht0, hk] at hs; exact absurd hs (by decide))
    | skip
  simp_all

example : ∃ w, Reach .ICT w ∧ (w.tr.state = .ICT_COMPLETED ∧
    w.trace.countP (Eff.isCbIn final3456) = 1) :=
  Ex.reach_exists Ex.invite Ex.ictRun (by decide +kernel)

/-! ## C05 -/

/-- What C05 says about one position of the trace: nothing is sent after a 2xx was announced. -/
def NoSendAfter2xx (pre : List Eff) (x : Eff) : Prop :=
  x.isSend = true → pre.countP (Eff.isCbIn [.ICT_STATUS_2XX_RECEIVED]) = 0

structure After2xx (t : Tr) (tr : List Eff) : Prop where
  always : Always NoSendAfter2xx tr
  noack : tr.countP (Eff.isCbIn [.ICT_STATUS_2XX_RECEIVED]) ≠ 0 →
    t.state = .ICT_TERMINATED ∧ t.ack = none

theorem noSend_other {l e : List Eff} (h : sends e = []) :
    Always (fun pre x => NoSendAfter2xx (l ++ pre) x) e := by
  refine always_of_forall (fun pre x hx hsend => ?_)
  exfalso
  cases x <;> simp [Eff.isSend] at hsend
  simp only [sends, List.filterMap_eq_nil_iff] at h
  simpa using h _ hx

theorem after2xx_exec {env t ev t' e r} (tr : List Eff) (hi : IctInv t) (hp : After2xx t tr)
    (hk : t.ctx_type = .ICT)
    (he : osip_transaction_execute env t ev = some (t', e, r)) : After2xx t' (tr ++ e) := by
  have hne : ∀ m : Msg, ict3456Cb m ∉ [Cb.ICT_STATUS_2XX_RECEIVED] := by
    intro m; simpa using ict3456Cb_ne m
  have hno := hi.noack
  obtain ⟨h1, h2⟩ := hp
  have h0 : t.state ≠ .ICT_TERMINATED →
      tr.countP (Eff.isCbIn [.ICT_STATUS_2XX_RECEIVED]) = 0 := by
    intro hs; exact Classical.byContradiction fun h => hs (h2 h).1
  fsm_exec he hk hs ht
  any_goals
    refine ⟨always_append.2 ⟨h1, noSend_other (by simp)⟩, ?_⟩
    simpa [List.countP_append] using h2
  all_goals
    simp only [hs, ne_eq, reduceCtorEq, not_false_eq_true, true_implies] at h0 hno
    refine ⟨always_append.2 ⟨h1, ?_⟩, ?_⟩
  any_goals (refine noSend_other ?_; simp; done)
  any_goals
    count_cbs [h0, hne]
    simp [hno]
    done
  all_goals
    simp (decide := true) only [always_append, always_cons, always_nil, and_true, NoSendAfter2xx,
      Eff.isSend, Bool.false_eq_true, false_implies, true_and, true_implies,
      List.countP_append, List.countP_cons, List.countP_nil, isCbIn_cb,
      isCbIn_send, isCbIn_tpErr, isCbIn_kill, isCbIn_new, isCbIn_free, countP_cbIn_freeOpt,
      List.contains_eq_mem, decide_eq_true_eq, if_true, if_false, Nat.add_zero,
      Nat.zero_add, h0, hne, always_freeOpt, implies_true]

theorem reach_after2xx {w : World} (h : Reach .ICT w) : After2xx w.tr w.trace := by
  have := reach_inv (k := .ICT) (P := fun t tr => IctInv t ∧ After2xx t tr) ?_ ?_ ?_ h
  · exact this.2
  · intro n1 n2 req t hi
    exact ⟨ictInv_init hi, by simp, by simp⟩
  · rintro t tr id ⟨h1, h2, h3⟩
    refine ⟨h1, always_append.2 ⟨h2, noSend_other (by simp)⟩, ?_⟩
    simpa [List.countP_append, List.countP_cons, Eff.isCbIn] using h3
  · rintro env t tr ev t' e r ⟨h1, h2⟩ hk hev he
    exact ⟨ictInv_exec h1 hk hev he, after2xx_exec tr h1 h2 hk he⟩

/-- **C05** (every history). Once a 2xx response was announced to the application the transaction is
TERMINATED; it never sends anything afterwards, and everything it ever sent was the INVITE: it
does not acknowledge the 2xx, nor anything else. -/
theorem c05_2xx_ends_without_ack {w : World} (h : Reach .ICT w) {pre post : List Eff}
    {r : Option Ref} (hcb : w.trace = pre ++ .cb .ICT_STATUS_2XX_RECEIVED r :: post) :
    w.tr.state = .ICT_TERMINATED ∧ sends post = [] ∧
    ∀ s ∈ sends w.trace, s.m.sip_method = some "INVITE".toList := by
  have h2 := reach_after2xx h
  have hi := reach_ictInv h
  have hs := h2.noack (by
    rw [hcb]
    simp [List.countP_append, List.countP_cons, Eff.isCbIn])
  refine ⟨hs.1, ?_, ?_⟩
  · refine List.filterMap_eq_nil_iff.2 ?_
    intro x hx
    cases x with
    | send s ho po =>
      obtain ⟨a, b, rfl⟩ := List.append_of_mem hx
      have := h2.always (pre ++ .cb .ICT_STATUS_2XX_RECEIVED r :: a) (.send s ho po) b
        (by rw [hcb]; simp) rfl
      simp [List.countP_append, List.countP_cons, Eff.isCbIn] at this
    | _ => rfl
  · intro s hs'
    obtain ⟨-, -, h3⟩ := reach_ictTrace h
    rcases h3 s hs' with ho | ho
    · obtain ⟨o, hor, _, hm, _⟩ := hi.orig (by rw [hs.1]; simp)
      rw [hor] at ho
      simp only [Option.some.injEq] at ho
      exact ho ▸ hm
    · rw [hs.2] at ho; simp at ho

/-- **C05** (the response itself). In CALLING and PROCEEDING a 2xx response is given to the
application once, nothing is sent, the transaction is TERMINATED and its end is announced. -/
theorem c05_2xx_step {env : Env} {w : World} (h : Reach .ICT w)
    (hs : w.tr.state = .ICT_CALLING ∨ w.tr.state = .ICT_PROCEEDING) {ev : Ev} (hev : EvOk ev)
    (ht : ev.type = .RCV_STATUS_2XX) :
    ∃ t' e r, osip_transaction_execute env w.tr ev = some (t', e, r) ∧
      t'.state = .ICT_TERMINATED ∧ sends e = [] ∧
      callbacks e = [(.ICT_STATUS_2XX_RECEIVED, ev.sip)] ∧ e.countP Eff.isKill = 1 := by
  obtain ⟨t', e, r, he⟩ := exec_safe h env hev
  refine ⟨t', e, r, he, ?_⟩
  have hk := (reach_queue h).1
  have hs0 := hs
  have ht0 := ht
  fsm_exec he hk hs ht
  all_goals (first | (rw [ht] at ht0; simp at ht0; done) | skip)
  all_goals first
    | (exfalso; rw [ht0, hk] at hs; rcases hs0 with h | h <;> rw [h] at hs <;>
       exact absurd hs (by decide))
    | skip
  all_goals simp [List.countP_append, List.countP_cons, Eff.isKill]

example : ∃ w, Reach .ICT w ∧ (w.tr.state = .ICT_TERMINATED ∧
    (callbacks w.trace).any (fun c => c.1 == .ICT_STATUS_2XX_RECEIVED) ∧
    (sends w.trace).length = 2) :=
  Ex.reach_exists Ex.invite [.outgoing Ex.invite, Ex.x, .timer .TIMEOUT_A, Ex.x,
    .incoming (Ex.response 180 "UDP" "INVITE"), Ex.x,
    .incoming (Ex.response 200 "UDP" "INVITE"), Ex.x,
    .incoming (Ex.response 200 "UDP" "INVITE"), Ex.x] (by decide +kernel)

/-! ## C06 -/

/-- A response was executed after the INVITE had been sent. -/
def ResponseProcessed (w : World) : Prop :=
  ∃ d ∈ w.log, d.state ≠ .ICT_PRE_CALLING ∧
    (d.ev.type = .RCV_STATUS_1XX ∨ d.ev.type = .RCV_STATUS_2XX ∨ d.ev.type = .RCV_STATUS_3456XX)

theorem processed_exec {env t ev t' e r} (hi : IctInv t) (hk : t.ctx_type = .ICT)
    (he : osip_transaction_execute env t ev = some (t', e, r))
    (hst : t.state ≠ .ICT_PRE_CALLING) :
    t'.state ≠ .ICT_PRE_CALLING ∧
    ((ev.type = .RCV_STATUS_1XX ∨ ev.type = .RCV_STATUS_2XX ∨ ev.type = .RCV_STATUS_3456XX) →
      t'.state ≠ .ICT_CALLING) ∧
    (t.state ≠ .ICT_CALLING → t'.state ≠ .ICT_CALLING ∧
      ∀ s ∈ sends e, s.m.sip_method = some "ACK".toList) := by
  have hca : ∀ {o r a : Msg}, ict_create_ack o r = some a →
    a.sip_method = some "ACK".toList := fun h => (create_ack_method h).1
  have hia := hi.isack
  have hstates := hi.states
  have hst0 := hst
  fsm_exec he hk hs ht
  all_goals try (exfalso; exact hst hs; done)
  any_goals
    (simp [hs, ht]; done)
  any_goals
    (simp [hs, ht]; apply hca; assumption)
  any_goals
    (simp [hs, ht]; apply hia; assumption)
  · refine ⟨hst, ?_, fun h => ⟨h, by simp⟩⟩
    rw [ht]; simp
  · refine ⟨hst, ?_, fun h => ⟨h, by simp⟩⟩
    intro h h1
    rw [h1, hk] at hs
    rcases h with h | h | h <;> rw [h] at hs <;> exact absurd hs (by decide)

/-- **C06**. Once the transaction has processed a response - provisional or final, received after
the INVITE was sent - the only message it sends, in any later history, is the ACK. The INVITE is
never retransmitted again. -/
theorem c06_no_invite_after_response {w w' : World} (h : Reach .ICT w) (hp : ResponseProcessed w)
    {ops : List Op} (hr : w.run ops = some w') :
    ∃ more, w'.trace = w.trace ++ more ∧ ∀ s ∈ sends more, s.m.sip_method = some "ACK".toList := by
  have hst : w.tr.state ≠ .ICT_PRE_CALLING ∧ w.tr.state ≠ .ICT_CALLING := by
    obtain ⟨d, hd, h1, h2⟩ := hp
    have := reach_inv_log (k := .ICT) (P := fun t _ l => IctInv t ∧
      ((∃ d ∈ l, d.state ≠ .ICT_PRE_CALLING) → t.state ≠ .ICT_PRE_CALLING) ∧
      ((∃ d ∈ l, d.state ≠ .ICT_PRE_CALLING ∧ (d.ev.type = .RCV_STATUS_1XX ∨
        d.ev.type = .RCV_STATUS_2XX ∨ d.ev.type = .RCV_STATUS_3456XX)) →
        t.state ≠ .ICT_CALLING)) ?_ ?_ ?_ h
    · exact ⟨this.2.1 ⟨d, hd, h1⟩, this.2.2 ⟨d, hd, h1, h2⟩⟩
    · intro n1 n2 req t hi
      exact ⟨ictInv_init hi, by simp, by simp⟩
    · intro t tr l id h
      exact h
    · rintro env t tr l ev t' e r ⟨h1, h2, h3⟩ hk hev he
      refine ⟨ictInv_exec h1 hk hev he, ?_, ?_⟩
      · rintro ⟨d, hd, hds⟩
        have : t.state ≠ .ICT_PRE_CALLING := by
          rcases List.mem_append.1 hd with hd | hd
          · exact h2 ⟨d, hd, hds⟩
          · simp at hd; subst hd; exact hds
        exact (processed_exec h1 hk he this).1
      · rintro ⟨d, hd, hds, hdt⟩
        rcases List.mem_append.1 hd with hd | hd
        · exact ((processed_exec h1 hk he (h2 ⟨d, hd, hds⟩)).2.2 (h3 ⟨d, hd, hds, hdt⟩)).1
        · simp at hd; subst hd
          exact (processed_exec h1 hk he hds).2.1 hdt
  have := run_more_exec (k := .ICT)
    (I := fun t => IctInv t ∧ t.state ≠ .ICT_PRE_CALLING ∧ t.state ≠ .ICT_CALLING)
    (R := fun x => ∀ s ∈ sends [x], s.m.sip_method = some "ACK".toList) (by simp) ?_ h
    ⟨reach_ictInv h, hst⟩ hr
  · obtain ⟨-, e, he, hR⟩ := this
    exact ⟨e, he, forall_sends.2 hR⟩
  · rintro env t ev t' e r ⟨h1, h2, h3⟩ hk hev he
    have hx := processed_exec h1 hk he h2
    exact ⟨⟨ictInv_exec h1 hk hev he, hx.1, (hx.2.2 h3).1⟩, forall_sends.1 (hx.2.2 h3).2⟩

example : ∃ w, Reach .ICT w ∧ (w.tr.state = .ICT_PROCEEDING ∧ w.queue = [⟨.TIMEOUT_A, none⟩] ∧
    w.log.any (fun d => d.state == .ICT_CALLING && d.ev.type == .RCV_STATUS_1XX)) :=
  Ex.reach_exists Ex.invite [.outgoing Ex.invite, Ex.x, .incoming (Ex.response 180 "UDP" "INVITE"),
    .timer .TIMEOUT_A, Ex.x] (by decide +kernel)

end Osip
