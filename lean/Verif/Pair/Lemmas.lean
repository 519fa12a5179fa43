import Verif.Pair.Model
import Verif.Fsm.PropsNist
import Verif.Fsm.PropsClientEnd

/-!
# Where the messages of one side come from (helper lemmas)
-/

set_option autoImplicit false

namespace Osip

/-- The program handed `r` over to be sent, and the event was executed. -/
def Submitted (l : List Done) (r : Ref) : Prop := ∃ d ∈ l, d.ev = ⟨evt_type_outgoing r.m, some r⟩

/-- `r` arrived from the network, and the event was executed. -/
def Arrived (l : List Done) (r : Ref) : Prop := ∃ d ∈ l, d.ev = ⟨evt_type_incoming r.m, some r⟩

theorem Submitted.mono {l r} {x : Done} (h : Submitted l r) : Submitted (l ++ [x]) r := by
  obtain ⟨d, h1, h2⟩ := h; exact ⟨d, by simp [h1], h2⟩
theorem Arrived.mono {l r} {x : Done} (h : Arrived l r) : Arrived (l ++ [x]) r := by
  obtain ⟨d, h1, h2⟩ := h; exact ⟨d, by simp [h1], h2⟩

theorem evOk_snd {ev : Ev} (hev : EvOk ev) {r : Ref} (hr : ev.sip = some r)
    (ht : ev.type = .SND_STATUS_1XX ∨ ev.type = .SND_STATUS_2XX ∨ ev.type = .SND_STATUS_3456XX ∨
      ev.type = .SND_REQUEST ∨ ev.type = .SND_REQINVITE) : ev = ⟨evt_type_outgoing r.m, some r⟩ := by
  obtain ⟨ty, sip⟩ := ev
  simp only at hr ht
  subst hr
  simp only [EvOk] at hev
  obtain ⟨-, h | h⟩ := hev
  · exfalso
    rw [h] at ht
    unfold evt_type_incoming at ht
    (repeat' split at ht) <;> simp at ht
  · rw [h]

theorem evOk_rcv {ev : Ev} (hev : EvOk ev) {r : Ref} (hr : ev.sip = some r)
    (ht : ev.type = .RCV_STATUS_1XX ∨ ev.type = .RCV_STATUS_2XX ∨ ev.type = .RCV_STATUS_3456XX ∨
      ev.type = .RCV_REQUEST ∨ ev.type = .RCV_REQINVITE ∨ ev.type = .RCV_REQACK) : ev = ⟨evt_type_incoming r.m, some r⟩ := by
  obtain ⟨ty, sip⟩ := ev
  simp only at hr ht
  subst hr
  simp only [EvOk] at hev
  obtain ⟨-, h | h⟩ := hev
  · rw [h]
  · exfalso
    rw [h] at ht
    unfold evt_type_outgoing at ht
    (repeat' split at ht) <;> simp at ht

theorem evOk_rcv_ack {ev : Ev} (h : EvOk ev) (ht : ev.type = .RCV_REQACK) :
    ∃ r, ev.sip = some r ∧ r.m.isRequest = true ∧ r.m.sip_method = some "ACK".toList := by
  obtain ⟨r, hs⟩ := evOk_msg h (by rw [ht]; rfl)
  refine ⟨r, hs, ?_⟩
  simp only [EvOk, hs, ht] at h
  obtain ⟨-, h⟩ := h
  rcases h with h | h
  · unfold evt_type_incoming at h; (repeat' split at h) <;> simp_all
  · unfold evt_type_outgoing at h; (repeat' split at h) <;> simp_all

/-! ## The servers -/

/-- What a server transaction sent or keeps as its last response was submitted. -/
def ServerSends (t : Tr) (tr : List Eff) (l : List Done) : Prop :=
  (∀ s ∈ sends tr, Submitted l s) ∧ (∀ s, t.last_response = some s → Submitted l s)

theorem nist_serverSends_exec {env t ev t' e r} (tr : List Eff) (l : List Done) (hp : ServerSends t tr l)
    (hk : t.ctx_type = .NIST) (hev : EvOk ev)
    (he : osip_transaction_execute env t ev = some (t', e, r)) :
    ServerSends t' (tr ++ e) (l ++ [⟨t.state, ev, env.send⟩]) := by
  have hsnd := @evOk_snd ev hev
  obtain ⟨h1, h2⟩ := hp
  have g1 : ∀ s ∈ sends tr, Submitted (l ++ [⟨t.state, ev, env.send⟩]) s := fun s hs => (h1 s hs).mono
  have g2 : ∀ s, t.last_response = some s → Submitted (l ++ [⟨t.state, ev, env.send⟩]) s := fun s hs => (h2 s hs).mono
  have g3 : ∀ s, ev.sip = some s → (ev.type = .SND_STATUS_1XX ∨ ev.type = .SND_STATUS_2XX ∨ ev.type = .SND_STATUS_3456XX ∨
      ev.type = .SND_REQUEST ∨ ev.type = .SND_REQINVITE) → Submitted (l ++ [⟨t.state, ev, env.send⟩]) s :=
    fun s hs ht => ⟨⟨t.state, ev, env.send⟩, by simp, hsnd hs ht⟩
  clear h1 h2 hsnd
  generalize l ++ [⟨t.state, ev, env.send⟩] = l' at *
  fsm_exec he hk hs ht
  all_goals try simp only [ht, reduceCtorEq, or_true, true_or, or_false, forall_const, false_implies, implies_true] at g3
  all_goals constructor
  all_goals try simp only [sends_append, sends_cons_send, sends_cons_cb, sends_cons_tpErr,
    sends_cons_kill, sends_nil, sends_freeOpt, sends_dropMsg, List.nil_append, List.append_nil]
  all_goals grind

theorem ist_serverSends_exec {env t ev t' e r} (tr : List Eff) (l : List Done) (hp : ServerSends t tr l)
    (hk : t.ctx_type = .IST) (hev : EvOk ev)
    (he : osip_transaction_execute env t ev = some (t', e, r)) :
    ServerSends t' (tr ++ e) (l ++ [⟨t.state, ev, env.send⟩]) := by
  have hsnd := @evOk_snd ev hev
  obtain ⟨h1, h2⟩ := hp
  have g1 : ∀ s ∈ sends tr, Submitted (l ++ [⟨t.state, ev, env.send⟩]) s := fun s hs => (h1 s hs).mono
  have g2 : ∀ s, t.last_response = some s → Submitted (l ++ [⟨t.state, ev, env.send⟩]) s := fun s hs => (h2 s hs).mono
  have g3 : ∀ s, ev.sip = some s → (ev.type = .SND_STATUS_1XX ∨ ev.type = .SND_STATUS_2XX ∨ ev.type = .SND_STATUS_3456XX ∨
      ev.type = .SND_REQUEST ∨ ev.type = .SND_REQINVITE) → Submitted (l ++ [⟨t.state, ev, env.send⟩]) s :=
    fun s hs ht => ⟨⟨t.state, ev, env.send⟩, by simp, hsnd hs ht⟩
  clear h1 h2 hsnd
  generalize l ++ [⟨t.state, ev, env.send⟩] = l' at *
  fsm_exec he hk hs ht
  all_goals try simp only [ht, reduceCtorEq, or_true, true_or, or_false, forall_const, false_implies, implies_true] at g3
  all_goals constructor
  all_goals try simp only [sends_append, sends_cons_send, sends_cons_cb, sends_cons_tpErr,
    sends_cons_kill, sends_nil, sends_freeOpt, sends_dropMsg, List.nil_append, List.append_nil]
  all_goals grind


theorem reach_serverSends {k : Kind} (hk : k = .IST ∨ k = .NIST) {w : World} (h : Reach k w) : ∀ s ∈ sends w.trace, Submitted w.log s := by
  have := reach_inv_log (k := k) (P := ServerSends) ?_ ?_ ?_ h
  · exact this.1
  · intro n1 n2 req t hi
    obtain ⟨_, _, h2, _, h4⟩ := init_shape hi
    exact ⟨by simp, by simp [h2]⟩
  · rintro t tr l id ⟨h1, h2⟩
    exact ⟨by simpa using h1, h2⟩
  · intro env t tr l ev t' e r h1 h2 h3 h4
    rcases hk with rfl | rfl
    · exact ist_serverSends_exec tr l h1 h2 h3 h4
    · exact nist_serverSends_exec tr l h1 h2 h3 h4

/-- Invariant over the callbacks: each satisfies `Q`. -/
theorem reach_callbacks {k : Kind} {Q : List Done → Cb → Ref → Prop} (hm : ∀ l x c r, Q l c r → Q (l ++ [x]) c r)
    (hexec : ∀ env t ev t' e r l, t.ctx_type = k → EvOk ev → osip_transaction_execute env t ev = some (t', e, r) →
      ∀ c m, (c, some m) ∈ callbacks e → Q (l ++ [⟨t.state, ev, env.send⟩]) c m)
    {w : World} (h : Reach k w) : ∀ c m, (c, some m) ∈ callbacks w.trace → Q w.log c m := by
  have := reach_inv_log (k := k) (P := fun _ tr l => ∀ c m, (c, some m) ∈ callbacks tr → Q l c m) ?_ ?_ ?_ h
  · exact this
  · simp
  · intro t tr l id h; simpa using h
  · intro env t tr l ev t' e r h1 h2 h3 h4 c m hc
    simp only [callbacks_append, List.mem_append] at hc
    rcases hc with hc | hc
    · exact hm _ _ _ _ (h1 c m hc)
    · exact hexec _ _ _ _ _ _ _ h2 h3 h4 c m hc

/-- A request announced to the program of the server arrived from the network. -/
theorem reach_nistNew {w : World} (h : Reach .NIST w) : ∀ c r, (c, some r) ∈ callbacks w.trace → c ∈ nistNew → Arrived w.log r := by
  refine reach_callbacks (Q := fun l c r => c ∈ nistNew → Arrived l r) (fun l x c r h hc => (h hc).mono) ?_ h
  intro env t ev t' e r l hk hev he
  have g : ∀ s, ev.sip = some s → (ev.type = .RCV_STATUS_1XX ∨ ev.type = .RCV_STATUS_2XX ∨ ev.type = .RCV_STATUS_3456XX ∨
      ev.type = .RCV_REQUEST ∨ ev.type = .RCV_REQINVITE ∨ ev.type = .RCV_REQACK) → Arrived (l ++ [⟨t.state, ev, env.send⟩]) s :=
    fun s hs ht => ⟨⟨t.state, ev, env.send⟩, by simp, evOk_rcv hev hs ht⟩
  generalize l ++ [⟨t.state, ev, env.send⟩] = l' at *
  have n1 : .NIST_REQUEST_RECEIVED_AGAIN ∉ nistNew := by decide
  have n2 : .NIST_STATUS_1XX_SENT ∉ nistNew := by decide
  have n3 : .NIST_STATUS_2XX_SENT ∉ nistNew := by decide
  have n4 : .NIST_STATUS_3XX_SENT ∉ nistNew := by decide
  have n5 : .NIST_STATUS_4XX_SENT ∉ nistNew := by decide
  have n8 : .NIST_STATUS_5XX_SENT ∉ nistNew := by decide
  have n9 : .NIST_STATUS_6XX_SENT ∉ nistNew := by decide
  have n6 : .NIST_STATUS_2XX_SENT_AGAIN ∉ nistNew := by decide
  have n7 : .NIST_STATUS_3456XX_SENT_AGAIN ∉ nistNew := by decide
  fsm_exec he hk hs ht
  all_goals try simp only [ht, reduceCtorEq, or_true, true_or, or_false, forall_const, false_implies, implies_true] at g
  all_goals simp only [callbacks_append, callbacks_cons_send, callbacks_cons_cb, callbacks_cons_tpErr,
    callbacks_cons_kill, callbacks_nil, callbacks_freeOpt, callbacks_dropMsg, List.nil_append, List.append_nil]
  all_goals grind

/-- An INVITE or an ACK announced to the program of the server arrived from the network. -/
theorem reach_istNew {w : World} (h : Reach .IST w) : ∀ c r, (c, some r) ∈ callbacks w.trace →
    (c = .IST_INVITE_RECEIVED → Arrived w.log r ∧ r.m.sip_method = some "INVITE".toList) ∧
    (c = .IST_ACK_RECEIVED → Arrived w.log r ∧ r.m.isRequest = true ∧ r.m.sip_method = some "ACK".toList) := by
  refine reach_callbacks (Q := fun l c r => (c = .IST_INVITE_RECEIVED → Arrived l r ∧ r.m.sip_method = some "INVITE".toList) ∧
    (c = .IST_ACK_RECEIVED → Arrived l r ∧ r.m.isRequest = true ∧ r.m.sip_method = some "ACK".toList))
    (fun l x c r h => ⟨fun hc => ⟨(h.1 hc).1.mono, (h.1 hc).2⟩, fun hc => ⟨(h.2 hc).1.mono, (h.2 hc).2⟩⟩) ?_ h
  intro env t ev t' e r l hk hev he
  have hin := evOk_rcv_invite hev
  have hack := evOk_rcv_ack hev
  have g : ∀ s, ev.sip = some s → (ev.type = .RCV_STATUS_1XX ∨ ev.type = .RCV_STATUS_2XX ∨ ev.type = .RCV_STATUS_3456XX ∨
      ev.type = .RCV_REQUEST ∨ ev.type = .RCV_REQINVITE ∨ ev.type = .RCV_REQACK) → Arrived (l ++ [⟨t.state, ev, env.send⟩]) s :=
    fun s hs ht => ⟨⟨t.state, ev, env.send⟩, by simp, evOk_rcv hev hs ht⟩
  generalize l ++ [⟨t.state, ev, env.send⟩] = l' at *
  fsm_exec he hk hs ht
  all_goals try simp only [ht, reduceCtorEq, or_true, true_or, or_false, forall_const, false_implies, implies_true] at g
  all_goals simp only [callbacks_append, callbacks_cons_send, callbacks_cons_cb, callbacks_cons_tpErr,
    callbacks_cons_kill, callbacks_cons_new, callbacks_cons_free, callbacks_nil, callbacks_freeOpt, callbacks_dropMsg, List.nil_append, List.append_nil]
  all_goals grind

/-- A server transaction that left its first state announced the INVITE. -/
theorem reach_istTold {w : World} (h : Reach .IST w) : w.tr.state ≠ .IST_PRE_PROCEEDING →
    w.trace.countP (Eff.isCbIn [.IST_INVITE_RECEIVED]) = 1 := by
  have := reach_inv (k := .IST) (P := fun t tr => t.state ≠ .IST_PRE_PROCEEDING → 1 ≤ tr.countP (Eff.isCbIn [.IST_INVITE_RECEIVED])) ?_ ?_ ?_ h
  · intro hs
    have h1 := (reach_istSends h).1.1
    have h2 := this hs
    omega
  · intro n1 n2 req t hi
    obtain ⟨_, _, _, _, h4⟩ := init_shape hi
    simp [h4]
  · intro t tr id h1 h2
    simpa [List.countP_append, isCbIn_new] using h1 h2
  · intro env t tr ev t' e r h1 hk hev he
    fsm_exec he hk hs ht
    all_goals simp only [List.countP_append]
    all_goals try (grind; done)
    all_goals
      intro
      simp only [List.countP_cons, isCbIn_cb, List.countP_nil]
      simp

/-! ## The clients -/

/-- The callbacks announcing a response, per kind of client transaction. -/
def responseCbs : Kind → List Cb
  | .ICT => .ICT_STATUS_1XX_RECEIVED :: finalCbs .ICT
  | .NICT => .NICT_STATUS_1XX_RECEIVED :: finalCbs .NICT
  | _ => []

/-- A response announced to the program of the client arrived from the network. -/
theorem reach_nictResponse {w : World} (h : Reach .NICT w) : ∀ c r, (c, some r) ∈ callbacks w.trace → c ∈ responseCbs .NICT →
    Arrived w.log r ∧ r.m.isRequest = false ∧ (c ∈ finalCbs .NICT ↔ r.m.isStatus 1 = false) := by
  refine reach_callbacks (Q := fun l c r => c ∈ responseCbs .NICT → Arrived l r ∧ r.m.isRequest = false ∧ (c ∈ finalCbs .NICT ↔ r.m.isStatus 1 = false))
    (fun l x c r h hc => ⟨(h hc).1.mono, (h hc).2⟩) ?_ h
  intro env t ev t' e r l hk hev he
  have hst := evOk_status hev
  have n1 : .NICT_REQUEST_SENT_AGAIN ∉ responseCbs .NICT := by decide
  have n2 : .NICT_STATUS_TIMEOUT ∉ responseCbs .NICT := by decide
  have n3 : ∀ m c, nictSentCb m = some c → c ∉ responseCbs .NICT := by
    intro m c hc
    have := nictSentCb_not hc
    simp only [responseCbs, List.mem_cons, not_or]
    refine ⟨?_, this.1⟩
    rintro rfl
    unfold nictSentCb Msg.isMethod at hc
    cases hr : m.isRequest <;> cases hm : m.sip_method <;> simp [hr, hm] at hc
    repeat' split at hc
    all_goals simp at hc
  have n4 := nictFinalCb_mem
  have n5 : .NICT_STATUS_1XX_RECEIVED ∉ finalCbs .NICT := by decide
  have g : ∀ s, ev.sip = some s → (ev.type = .RCV_STATUS_1XX ∨ ev.type = .RCV_STATUS_2XX ∨ ev.type = .RCV_STATUS_3456XX ∨
      ev.type = .RCV_REQUEST ∨ ev.type = .RCV_REQINVITE ∨ ev.type = .RCV_REQACK) → Arrived (l ++ [⟨t.state, ev, env.send⟩]) s :=
    fun s hs ht => ⟨⟨t.state, ev, env.send⟩, by simp, evOk_rcv hev hs ht⟩
  generalize l ++ [⟨t.state, ev, env.send⟩] = l' at *
  fsm_exec he hk hs ht
  all_goals try simp only [ht, reduceCtorEq, or_true, true_or, or_false, forall_const, false_implies, implies_true] at g
  all_goals simp only [callbacks_append, callbacks_cons_send, callbacks_cons_cb, callbacks_cons_tpErr,
    callbacks_cons_kill, callbacks_cons_new, callbacks_cons_free, callbacks_nil, callbacks_freeOpt, callbacks_dropMsg, List.nil_append, List.append_nil]
  all_goals grind

theorem reach_ictResponse {w : World} (h : Reach .ICT w) : ∀ c r, (c, some r) ∈ callbacks w.trace → c ∈ responseCbs .ICT →
    Arrived w.log r ∧ r.m.isRequest = false ∧ (c ∈ finalCbs .ICT ↔ r.m.isStatus 1 = false) := by
  refine reach_callbacks (Q := fun l c r => c ∈ responseCbs .ICT → Arrived l r ∧ r.m.isRequest = false ∧ (c ∈ finalCbs .ICT ↔ r.m.isStatus 1 = false))
    (fun l x c r h hc => ⟨(h hc).1.mono, (h hc).2⟩) ?_ h
  intro env t ev t' e r l hk hev he
  have hst := evOk_status hev
  have n1 : .ICT_INVITE_SENT_AGAIN ∉ responseCbs .ICT := by decide
  have n2 : .ICT_STATUS_TIMEOUT ∉ responseCbs .ICT := by decide
  have n3 : .ICT_INVITE_SENT ∉ responseCbs .ICT := by decide
  have n6 : .ICT_ACK_SENT ∉ responseCbs .ICT := by decide
  have n7 : .ICT_ACK_SENT_AGAIN ∉ responseCbs .ICT := by decide
  have n8 : .ICT_STATUS_3456XX_RECEIVED_AGAIN ∉ responseCbs .ICT := by decide
  have n9 : .ICT_STATUS_2XX_RECEIVED ∈ finalCbs .ICT := by decide
  have n4 := ict3456Cb_mem'
  have n5 : .ICT_STATUS_1XX_RECEIVED ∉ finalCbs .ICT := by decide
  have g : ∀ s, ev.sip = some s → (ev.type = .RCV_STATUS_1XX ∨ ev.type = .RCV_STATUS_2XX ∨ ev.type = .RCV_STATUS_3456XX ∨
      ev.type = .RCV_REQUEST ∨ ev.type = .RCV_REQINVITE ∨ ev.type = .RCV_REQACK) → Arrived (l ++ [⟨t.state, ev, env.send⟩]) s :=
    fun s hs ht => ⟨⟨t.state, ev, env.send⟩, by simp, evOk_rcv hev hs ht⟩
  generalize l ++ [⟨t.state, ev, env.send⟩] = l' at *
  fsm_exec he hk hs ht
  all_goals try simp only [ht, reduceCtorEq, or_true, true_or, or_false, forall_const, false_implies, implies_true] at g
  all_goals simp only [callbacks_append, callbacks_cons_send, callbacks_cons_cb, callbacks_cons_tpErr,
    callbacks_cons_kill, callbacks_cons_new, callbacks_cons_free, callbacks_nil, callbacks_freeOpt, callbacks_dropMsg, List.nil_append, List.append_nil]
  all_goals grind

end Osip
