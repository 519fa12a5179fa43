import Verif.Fsm.InvIct
import Verif.Fsm.InvNict
import Verif.Fsm.InvIst
import Verif.Fsm.InvNist
import Verif.Fsm.Examples

/-!
# C61: no history makes the state machines dereference a NULL pointer
-/

namespace Osip

/-- An event is executed if its handler, when there is one, can run. -/
theorem exec_isSome_of {env : Env} {t : Tr} {ev : Ev}
    (h : ∀ hn, (t.state, ev.type, hn) ∈ tableOf t.ctx_type → (hn.run env t ev).isSome = true) :
    (osip_transaction_execute env t ev).isSome = true := by
  unfold osip_transaction_execute
  split
  · rfl
  · split
    · rfl
    · next hn hf =>
      obtain ⟨⟨t', e⟩, hr⟩ := Option.isSome_iff_exists.1 (h hn (find_mem hf))
      simp [hr]

theorem requestDestination_isSome {m : Msg} (h : m.req_uri.isSome = true) :
    (requestDestination m).isSome = true := by
  obtain ⟨u, hu⟩ := Option.isSome_iff_exists.1 h
  unfold requestDestination
  simp only [hu]
  split
  · rfl
  · split <;> rfl

theorem snd_xxx_isSome {env : Env} {r : Ref} : (snd_xxx env (some r)).isSome = true := by
  unfold snd_xxx; split <;> simp_all <;> split <;> rfl

theorem ict3456_isSome {env : Env} {t : Tr} {ev : Ev} {r o : Ref} (hr : ev.sip = some r)
    (ho : t.orig_request = some o) : (ict_rcv_3456xx env t ev).isSome = true := by
  simp only [ict_rcv_3456xx, hr, ho, Option.bind_eq_bind, Option.bind_some, Option.pure_def]
  split
  · split
    · rfl
    · next a ha =>
      have : (ictAckDestination t.ict a).isSome = true := by
        unfold ictAckDestination
        split
        · rfl
        · exact requestDestination_isSome (create_ack_method ha).2.1
      obtain ⟨⟨h, p⟩, hd⟩ := Option.isSome_iff_exists.1 this
      simp only [hd, Option.bind_some]
      split <;> rfl
  · rfl

theorem safe_ICT {env : Env} {t : Tr} {ev : Ev} (hi : IctInv t) (hk : t.ctx_type = .ICT)
    (hev : EvOk ev) : (osip_transaction_execute env t ev).isSome = true := by
  refine exec_isSome_of ?_
  intro hn hm
  rw [hk] at hm
  simp only [tableOf, ict_transition, List.mem_cons, Prod.mk.injEq, List.not_mem_nil, or_false] at hm
  rcases hm with ⟨hs, ht, rfl⟩ | ⟨hs, ht, rfl⟩ | ⟨hs, ht, rfl⟩ | ⟨hs, ht, rfl⟩ | ⟨hs, ht, rfl⟩ |
    ⟨hs, ht, rfl⟩ | ⟨hs, ht, rfl⟩ | ⟨hs, ht, rfl⟩ | ⟨hs, ht, rfl⟩ | ⟨hs, ht, rfl⟩ | ⟨hs, ht, rfl⟩
  · obtain ⟨r, hr, -⟩ := evOk_snd_invite hev ht
    simp only [H.run, ict_snd_invite, hr, sendMsg, Option.bind_eq_bind, Option.bind_some,
      Option.pure_def]
    repeat' split
    all_goals rfl
  · obtain ⟨r, hr, -⟩ := hi.orig (by simp [hs])
    simp only [H.run, osip_ict_timeout_a_event, hr, sendMsg, Option.bind_eq_bind, Option.bind_some,
      Option.pure_def]
    repeat' split
    all_goals rfl
  · rfl
  · rfl
  · rfl
  · obtain ⟨r, hr⟩ := evOk_msg hev (by rw [ht]; rfl)
    obtain ⟨o, ho, -⟩ := hi.orig (by simp [hs])
    exact ict3456_isSome hr ho
  · rfl
  · rfl
  · obtain ⟨r, hr⟩ := evOk_msg hev (by rw [ht]; rfl)
    obtain ⟨o, ho, -⟩ := hi.orig (by simp [hs])
    exact ict3456_isSome hr ho
  · obtain ⟨a, ha⟩ := Option.isSome_iff_exists.1 (hi.ack hs)
    simp only [H.run, ict_retransmit_ack, ha, sendMsg, Option.bind_eq_bind, Option.bind_some,
      Option.pure_def]
    split <;> rfl
  · rfl

theorem nictSentCb_isSome {m : Msg} (h : m.sip_method.isSome = true) :
    (nictSentCb m).isSome = true := by
  obtain ⟨s, hs⟩ := Option.isSome_iff_exists.1 h
  unfold nictSentCb Msg.isMethod
  simp only [hs]
  by_cases hq : m.isRequest = true <;> simp only [hq, if_true, Bool.false_eq_true, if_false,
    Option.bind_eq_bind, Option.bind_some, Option.pure_def]
  repeat' split
  all_goals rfl

theorem nistRcvCb_isSome {m : Msg} (h : m.sip_method.isSome = true) :
    (nistRcvCb m).isSome = true := by
  obtain ⟨s, hs⟩ := Option.isSome_iff_exists.1 h
  unfold nistRcvCb Msg.isMethod
  simp only [hs]
  by_cases hq : m.isRequest = true <;> simp only [hq, if_true, Bool.false_eq_true, if_false,
    Option.bind_eq_bind, Option.bind_some, Option.pure_def]
  repeat' split
  all_goals rfl

theorem nictE_isSome {env : Env} {t : Tr} {ev : Ev} {o : Ref}
    (ho : t.orig_request = some o) : (osip_nict_timeout_e_event env t ev).isSome = true := by
  simp only [osip_nict_timeout_e_event, ho, sendMsg, Option.bind_eq_bind, Option.bind_some,
    Option.pure_def]
  by_cases h1 : env.send < 0
  · simp only [h1, if_true]; rfl
  · by_cases h2 : env.send = 0
    · simp only [h2, if_true]
      repeat' split
      all_goals rfl
    · simp only [h1, h2, if_false]; rfl

theorem nict23456_isSome {env : Env} {t : Tr} {ev : Ev} {r : Ref} (hr : ev.sip = some r) :
    (nict_rcv_23456xx env t ev).isSome = true := by
  simp [nict_rcv_23456xx, hr]

theorem safe_NICT {env : Env} {t : Tr} {ev : Ev} (hi : NictInv t) (hk : t.ctx_type = .NICT)
    (hev : EvOk ev) : (osip_transaction_execute env t ev).isSome = true := by
  refine exec_isSome_of ?_
  intro hn hm
  rw [hk] at hm
  simp only [tableOf, nict_transition, List.mem_cons, Prod.mk.injEq, List.not_mem_nil, or_false] at hm
  rcases hm with ⟨hs, ht, rfl⟩ | ⟨hs, ht, rfl⟩ | ⟨hs, ht, rfl⟩ | ⟨hs, ht, rfl⟩ | ⟨hs, ht, rfl⟩ |
    ⟨hs, ht, rfl⟩ | ⟨hs, ht, rfl⟩ | ⟨hs, ht, rfl⟩ | ⟨hs, ht, rfl⟩ | ⟨hs, ht, rfl⟩ |
    ⟨hs, ht, rfl⟩ | ⟨hs, ht, rfl⟩
  · obtain ⟨r, hr, _, hm, -⟩ := evOk_snd_request hev ht
    obtain ⟨c, hc⟩ := Option.isSome_iff_exists.1 (nictSentCb_isSome hm)
    simp only [H.run, nict_snd_request, hr, hc, sendMsg, Option.bind_eq_bind, Option.bind_some,
      Option.pure_def]
    by_cases h1 : env.send < 0
    · simp only [h1, if_true]; rfl
    · simp only [h1, if_false]
      cases topViaProto (some r) with
      | inl i => rfl
      | inr p => cases p <;> rfl
  · rfl
  · obtain ⟨o, ho, -⟩ := hi.orig (by simp [hs])
    exact nictE_isSome (ev := ev) ho
  · rfl
  · obtain ⟨r, hr⟩ := evOk_msg hev (by rw [ht]; rfl)
    exact nict23456_isSome hr
  · obtain ⟨r, hr⟩ := evOk_msg hev (by rw [ht]; rfl)
    exact nict23456_isSome hr
  · rfl
  · obtain ⟨o, ho, -⟩ := hi.orig (by simp [hs])
    exact nictE_isSome (ev := ev) ho
  · rfl
  · obtain ⟨r, hr⟩ := evOk_msg hev (by rw [ht]; rfl)
    exact nict23456_isSome hr
  · obtain ⟨r, hr⟩ := evOk_msg hev (by rw [ht]; rfl)
    exact nict23456_isSome hr
  · rfl

theorem istInvite_isSome {env : Env} {t : Tr} {ev : Ev} :
    (ist_rcv_invite env t ev).isSome = true := by
  unfold ist_rcv_invite
  split
  · rfl
  · dsimp only
    split
    · rfl
    · next lr _ =>
      obtain ⟨⟨i, s⟩, hd⟩ := Option.isSome_iff_exists.1 (snd_xxx_isSome (env := env) (r := lr))
      simp only [hd, Option.bind_eq_bind, Option.bind_some, Option.pure_def]
      split <;> rfl

theorem nistRequest_isSome {env : Env} {t : Tr} {ev : Ev} {r : Ref} (hr : ev.sip = some r)
    (hm : r.m.sip_method.isSome = true) : (nist_rcv_request env t ev).isSome = true := by
  unfold nist_rcv_request
  split
  · obtain ⟨c, hc⟩ := Option.isSome_iff_exists.1 (nistRcvCb_isSome hm)
    simp [hr, hc]
  · dsimp only
    split
    · rfl
    · next lr _ =>
      obtain ⟨⟨i, s⟩, hd⟩ := Option.isSome_iff_exists.1 (snd_xxx_isSome (env := env) (r := lr))
      simp only [hd, Option.bind_eq_bind, Option.bind_some, Option.pure_def]
      split <;> rfl

theorem safe_IST {env : Env} {t : Tr} {ev : Ev} (hi : IstInv t) (hk : t.ctx_type = .IST)
    (hev : EvOk ev) : (osip_transaction_execute env t ev).isSome = true := by
  refine exec_isSome_of ?_
  intro hn hm
  rw [hk] at hm
  simp only [tableOf, ist_transition, List.mem_cons, Prod.mk.injEq, List.not_mem_nil, or_false] at hm
  have hsnd : ev.type.isMsg = true → ∃ r i s, ev.sip = some r ∧ snd_xxx env (some r) = some (i, s) := by
    intro h
    obtain ⟨r, hr⟩ := evOk_msg hev h
    obtain ⟨⟨i, s⟩, hd⟩ := Option.isSome_iff_exists.1 (snd_xxx_isSome (env := env) (r := r))
    exact ⟨r, i, s, hr, hd⟩
  rcases hm with ⟨hs, ht, rfl⟩ | ⟨hs, ht, rfl⟩ | ⟨hs, ht, rfl⟩ | ⟨hs, ht, rfl⟩ | ⟨hs, ht, rfl⟩ |
    ⟨hs, ht, rfl⟩ | ⟨hs, ht, rfl⟩ | ⟨hs, ht, rfl⟩ | ⟨hs, ht, rfl⟩ | ⟨hs, ht, rfl⟩ | ⟨hs, ht, rfl⟩
  · exact istInvite_isSome
  · exact istInvite_isSome
  · exact istInvite_isSome
  · obtain ⟨lr, hlr, -⟩ := hi.last (.inl hs)
    obtain ⟨⟨i, s⟩, hd⟩ := Option.isSome_iff_exists.1 (snd_xxx_isSome (env := env) (r := lr))
    simp only [H.run, osip_ist_timeout_g_event, hlr, hd, Option.bind_eq_bind, Option.bind_some,
      Option.pure_def]
    split <;> rfl
  · rfl
  · obtain ⟨r, i, s, hr, hd⟩ := hsnd (by rw [ht]; rfl)
    simp only [H.run, ist_snd_1xx, hr, hd, Option.bind_eq_bind, Option.bind_some, Option.pure_def]
    split <;> rfl
  · obtain ⟨r, i, s, hr, hd⟩ := hsnd (by rw [ht]; rfl)
    simp only [H.run, ist_snd_2xx, hr, hd, Option.bind_eq_bind, Option.bind_some, Option.pure_def]
    split <;> rfl
  · obtain ⟨r, i, s, hr, hd⟩ := hsnd (by rw [ht]; rfl)
    simp only [H.run, ist_snd_3456xx, hr, hd, Option.bind_eq_bind, Option.bind_some, Option.pure_def]
    split <;> rfl
  · rfl
  · rfl
  · rfl

theorem safe_NIST {env : Env} {t : Tr} {ev : Ev} (hk : t.ctx_type = .NIST)
    (hev : EvOk ev) : (osip_transaction_execute env t ev).isSome = true := by
  refine exec_isSome_of ?_
  intro hn hm
  rw [hk] at hm
  simp only [tableOf, nist_transition, List.mem_cons, Prod.mk.injEq, List.not_mem_nil, or_false] at hm
  have hsnd : ev.type.isMsg = true → ∃ r i s, ev.sip = some r ∧ snd_xxx env (some r) = some (i, s) := by
    intro h
    obtain ⟨r, hr⟩ := evOk_msg hev h
    obtain ⟨⟨i, s⟩, hd⟩ := Option.isSome_iff_exists.1 (snd_xxx_isSome (env := env) (r := r))
    exact ⟨r, i, s, hr, hd⟩
  have hreq : ev.type = .RCV_REQUEST → (nist_rcv_request env t ev).isSome = true := by
    intro h
    obtain ⟨r, hr, _, hm, -⟩ := evOk_rcv_request hev h
    exact nistRequest_isSome hr hm
  have hfin : ev.type.isMsg = true → (nist_snd_23456xx env t ev).isSome = true := by
    intro h
    obtain ⟨r, i, s, hr, hd⟩ := hsnd h
    simp only [nist_snd_23456xx, hr, hd, Option.bind_eq_bind, Option.bind_some, Option.pure_def]
    split <;> rfl
  have hprov : ev.type.isMsg = true → (nist_snd_1xx env t ev).isSome = true := by
    intro h
    obtain ⟨r, i, s, hr, hd⟩ := hsnd h
    simp only [nist_snd_1xx, hr, hd, Option.bind_eq_bind, Option.bind_some, Option.pure_def]
    split <;> rfl
  rcases hm with ⟨hs, ht, rfl⟩ | ⟨hs, ht, rfl⟩ | ⟨hs, ht, rfl⟩ | ⟨hs, ht, rfl⟩ | ⟨hs, ht, rfl⟩ |
    ⟨hs, ht, rfl⟩ | ⟨hs, ht, rfl⟩ | ⟨hs, ht, rfl⟩ | ⟨hs, ht, rfl⟩ | ⟨hs, ht, rfl⟩
  · exact hreq ht
  · exact hprov (by rw [ht]; rfl)
  · exact hfin (by rw [ht]; rfl)
  · exact hfin (by rw [ht]; rfl)
  · exact hprov (by rw [ht]; rfl)
  · exact hfin (by rw [ht]; rfl)
  · exact hfin (by rw [ht]; rfl)
  · exact hreq ht
  · rfl
  · exact hreq ht

/-- Executing any consistent event on a reachable transaction works. -/
theorem exec_safe {O : Op → Prop} {k : Kind} {w : World} (h : ReachO O k w) (env : Env) {ev : Ev}
    (hev : EvOk ev) : ∃ t e r, osip_transaction_execute env w.tr ev = some (t, e, r) := by
  have hk := (reach_queue h).1
  have : (osip_transaction_execute env w.tr ev).isSome = true := by
    cases k
    · exact safe_ICT (reach_ictInv h) hk hev
    · exact safe_IST (reach_istInv h) hk hev
    · exact safe_NICT (reach_nictInv h) hk hev
    · exact safe_NIST hk hev
  obtain ⟨⟨t, e, r⟩, hx⟩ := Option.isSome_iff_exists.1 this
  exact ⟨t, e, r, hx⟩

/-- **C61**. No sequence of operations on a transaction - messages of any content arriving or
submitted, timers firing in any order, the transport answering anything - makes the library
dereference a NULL pointer: every such sequence can be carried out. -/
theorem c61_no_null_dereference {k : Kind} {now1 now2 : TimeVal} {req : Msg} {t : Tr}
    (hi : transactionInit k now1 now2 req = some (.ok t)) (ops : List Op) :
    ((World.init t).run ops).isSome = true := by
  have key : ∀ ops (w : World), Reach k w → (w.run ops).isSome = true := by
    intro ops
    induction ops with
    | nil => intro w _; rfl
    | cons o os ih =>
      intro w hw
      have hs : ∃ w', w.step o = some w' := by
        cases o with
        | exec send n1 n2 =>
          simp only [World.step]
          cases hq : w.queue with
          | nil => exact ⟨w, rfl⟩
          | cons ev q =>
            obtain ⟨t, e, r, hx⟩ := exec_safe hw ⟨send, n1, n2, w.next⟩
              ((reach_queue hw).2 ev (by simp [hq]))
            simp [hx]
        | incoming m => simp only [World.step]; split <;> exact ⟨_, rfl⟩
        | outgoing m => simp only [World.step]; split <;> exact ⟨_, rfl⟩
        | tick n => exact ⟨_, rfl⟩
        | timer t => simp only [World.step]; split <;> exact ⟨_, rfl⟩
        | kill => exact ⟨_, rfl⟩
      obtain ⟨w', hw'⟩ := hs
      simp only [World.run, hw', Option.bind_eq_bind, Option.bind_some]
      exact ih w' (hw.step trivial hw')
  exact key ops _ ⟨now1, now2, req, t, [], hi, rfl, by simp⟩

example : (Ex.start .ICT Ex.invite).isSome = true := by decide +kernel

end Osip
