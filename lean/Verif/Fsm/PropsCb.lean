import Verif.Fsm.Safe
import Verif.Fsm.Examples

/-!
# C64: the type of a callback tells the truth about its message
-/

set_option autoImplicit false

namespace Osip

/-! ## Specification -/

/-- A request with this method. -/
def Msg.RequestOf (m : Msg) (meth : String) : Prop :=
  m.status_code = 0 ∧ m.sip_method = some meth.toList

/-- A response with a code of this class, `100 * k` to `100 * k + 99`. -/
def Msg.ResponseOf (m : Msg) (k : Int) : Prop :=
  100 * k ≤ m.status_code ∧ m.status_code ≤ 100 * k + 99

/-- A request of a non-INVITE transaction. -/
def Msg.OtherRequest (m : Msg) : Prop :=
  m.status_code = 0 ∧ m.sip_method ≠ some "INVITE".toList ∧ m.sip_method ≠ some "ACK".toList

/-- The method has no callback type of its own. -/
def Msg.UnknownRequest (m : Msg) : Prop :=
  m.OtherRequest ∧ ∀ meth ∈ ["REGISTER", "BYE", "OPTIONS", "INFO", "CANCEL", "NOTIFY", "SUBSCRIBE"],
    m.sip_method ≠ some meth.toList

/-- A response which is neither 1xx nor 2xx. -/
def Msg.Rejection (m : Msg) : Prop :=
  m.status_code ≠ 0 ∧ ¬ m.ResponseOf 1 ∧ ¬ m.ResponseOf 2

/-- A response which is none of 1xx to 5xx: the library calls it 6xx. -/
def Msg.Global (m : Msg) : Prop :=
  m.Rejection ∧ ¬ m.ResponseOf 3 ∧ ¬ m.ResponseOf 4 ∧ ¬ m.ResponseOf 5

/-- What the callback type says about the message. -/
def Announces : Cb → Msg → Prop
  | .ICT_INVITE_SENT, m | .ICT_INVITE_SENT_AGAIN, m
  | .IST_INVITE_RECEIVED, m | .IST_INVITE_RECEIVED_AGAIN, m => m.RequestOf "INVITE"
  | .ICT_ACK_SENT, m | .ICT_ACK_SENT_AGAIN, m
  | .IST_ACK_RECEIVED, m | .IST_ACK_RECEIVED_AGAIN, m => m.RequestOf "ACK"
  | .ICT_STATUS_1XX_RECEIVED, m | .NICT_STATUS_1XX_RECEIVED, m
  | .IST_STATUS_1XX_SENT, m | .NIST_STATUS_1XX_SENT, m => m.ResponseOf 1
  | .ICT_STATUS_2XX_RECEIVED, m | .NICT_STATUS_2XX_RECEIVED, m
  | .ICT_STATUS_2XX_RECEIVED_AGAIN, m | .NICT_STATUS_2XX_RECEIVED_AGAIN, m
  | .IST_STATUS_2XX_SENT, m | .NIST_STATUS_2XX_SENT, m
  | .IST_STATUS_2XX_SENT_AGAIN, m | .NIST_STATUS_2XX_SENT_AGAIN, m => m.ResponseOf 2
  | .ICT_STATUS_3XX_RECEIVED, m | .NICT_STATUS_3XX_RECEIVED, m
  | .IST_STATUS_3XX_SENT, m | .NIST_STATUS_3XX_SENT, m => m.ResponseOf 3
  | .ICT_STATUS_4XX_RECEIVED, m | .NICT_STATUS_4XX_RECEIVED, m
  | .IST_STATUS_4XX_SENT, m | .NIST_STATUS_4XX_SENT, m => m.ResponseOf 4
  | .ICT_STATUS_5XX_RECEIVED, m | .NICT_STATUS_5XX_RECEIVED, m
  | .IST_STATUS_5XX_SENT, m | .NIST_STATUS_5XX_SENT, m => m.ResponseOf 5
  | .ICT_STATUS_6XX_RECEIVED, m | .NICT_STATUS_6XX_RECEIVED, m
  | .IST_STATUS_6XX_SENT, m | .NIST_STATUS_6XX_SENT, m => m.Global
  | .ICT_STATUS_3456XX_RECEIVED_AGAIN, m | .NICT_STATUS_3456XX_RECEIVED_AGAIN, m
  | .IST_STATUS_3456XX_SENT_AGAIN, m | .NIST_STATUS_3456XX_SENT_AGAIN, m => m.Rejection
  | .NICT_REGISTER_SENT, m | .NIST_REGISTER_RECEIVED, m => m.RequestOf "REGISTER"
  | .NICT_BYE_SENT, m | .NIST_BYE_RECEIVED, m => m.RequestOf "BYE"
  | .NICT_OPTIONS_SENT, m | .NIST_OPTIONS_RECEIVED, m => m.RequestOf "OPTIONS"
  | .NICT_INFO_SENT, m | .NIST_INFO_RECEIVED, m => m.RequestOf "INFO"
  | .NICT_CANCEL_SENT, m | .NIST_CANCEL_RECEIVED, m => m.RequestOf "CANCEL"
  | .NICT_NOTIFY_SENT, m | .NIST_NOTIFY_RECEIVED, m => m.RequestOf "NOTIFY"
  | .NICT_SUBSCRIBE_SENT, m | .NIST_SUBSCRIBE_RECEIVED, m => m.RequestOf "SUBSCRIBE"
  | .NICT_UNKNOWN_REQUEST_SENT, m | .NIST_UNKNOWN_REQUEST_RECEIVED, m => m.UnknownRequest
  | .NICT_REQUEST_SENT_AGAIN, m | .NIST_REQUEST_RECEIVED_AGAIN, m => m.OtherRequest
  | .ICT_STATUS_TIMEOUT, _ | .NICT_STATUS_TIMEOUT, _ => False

/-- The kind of transaction the callback type belongs to. -/
def Cb.kind : Cb → Kind
  | .ICT_INVITE_SENT | .ICT_INVITE_SENT_AGAIN | .ICT_ACK_SENT | .ICT_ACK_SENT_AGAIN
  | .ICT_STATUS_1XX_RECEIVED | .ICT_STATUS_2XX_RECEIVED | .ICT_STATUS_2XX_RECEIVED_AGAIN
  | .ICT_STATUS_3XX_RECEIVED | .ICT_STATUS_4XX_RECEIVED | .ICT_STATUS_5XX_RECEIVED
  | .ICT_STATUS_6XX_RECEIVED | .ICT_STATUS_3456XX_RECEIVED_AGAIN | .ICT_STATUS_TIMEOUT => .ICT
  | .IST_INVITE_RECEIVED | .IST_INVITE_RECEIVED_AGAIN | .IST_ACK_RECEIVED
  | .IST_ACK_RECEIVED_AGAIN | .IST_STATUS_1XX_SENT | .IST_STATUS_2XX_SENT
  | .IST_STATUS_2XX_SENT_AGAIN | .IST_STATUS_3XX_SENT | .IST_STATUS_4XX_SENT
  | .IST_STATUS_5XX_SENT | .IST_STATUS_6XX_SENT | .IST_STATUS_3456XX_SENT_AGAIN => .IST
  | .NIST_REGISTER_RECEIVED | .NIST_BYE_RECEIVED | .NIST_OPTIONS_RECEIVED | .NIST_INFO_RECEIVED
  | .NIST_CANCEL_RECEIVED | .NIST_NOTIFY_RECEIVED | .NIST_SUBSCRIBE_RECEIVED
  | .NIST_UNKNOWN_REQUEST_RECEIVED | .NIST_REQUEST_RECEIVED_AGAIN
  | .NIST_STATUS_1XX_SENT | .NIST_STATUS_2XX_SENT | .NIST_STATUS_2XX_SENT_AGAIN
  | .NIST_STATUS_3XX_SENT | .NIST_STATUS_4XX_SENT | .NIST_STATUS_5XX_SENT
  | .NIST_STATUS_6XX_SENT | .NIST_STATUS_3456XX_SENT_AGAIN => .NIST
  | _ => .NICT

/-- The callback belongs to this kind of transaction, announces a message unless it is the timeout
callback, and tells the truth about the message. -/
structure CbTrue (k : Kind) (c : Cb) (r : Option Ref) : Prop where
  of_kind : c.kind = k
  of_msg : match r with
    | none => c = .ICT_STATUS_TIMEOUT ∨ c = .NICT_STATUS_TIMEOUT
    | some x => Announces c x.m

/-! ## Lemmas -/

theorem isRequest_iff {m : Msg} : m.isRequest = true ↔ m.status_code = 0 := by simp [Msg.isRequest]
theorem isRequest_false {m : Msg} : m.isRequest = false ↔ m.status_code ≠ 0 := by simp [Msg.isRequest]
theorem isStatus_iff {m : Msg} {k : Int} : m.isStatus k = true ↔ m.ResponseOf k := by
  simp [Msg.isStatus, Msg.ResponseOf]; omega
theorem isStatus_false {m : Msg} {k : Int} : m.isStatus k = false ↔ ¬ m.ResponseOf k := by
  rw [← isStatus_iff]; simp

/-- What the original request of a transaction is. -/
def OrigOk (t : Tr) : Prop :=
  ∀ r, t.orig_request = some r → match t.ctx_type with
    | .ICT | .IST => r.m.RequestOf "INVITE"
    | .NICT | .NIST => r.m.OtherRequest

theorem ev_invite {ev : Ev} (h : EvOk ev) (ht : ev.type = .RCV_REQINVITE ∨ ev.type = .SND_REQINVITE) :
    ∃ r, ev.sip = some r ∧ r.m.RequestOf "INVITE" := by
  rcases ht with ht | ht
  · obtain ⟨r, h1, h2, h3, _⟩ := evOk_rcv_invite h ht
    exact ⟨r, h1, isRequest_iff.1 h2, h3⟩
  · obtain ⟨r, h1, h2, h3, _⟩ := evOk_snd_invite h ht
    exact ⟨r, h1, isRequest_iff.1 h2, h3⟩

theorem ev_request {ev : Ev} (h : EvOk ev) (ht : ev.type = .RCV_REQUEST ∨ ev.type = .SND_REQUEST) :
    ∃ r, ev.sip = some r ∧ r.m.OtherRequest := by
  rcases ht with ht | ht
  · obtain ⟨r, h1, h2, _, h3, h4, _⟩ := evOk_rcv_request h ht
    exact ⟨r, h1, isRequest_iff.1 h2, h3, h4⟩
  · obtain ⟨r, h1, h2, _, h3, h4, _⟩ := evOk_snd_request h ht
    exact ⟨r, h1, isRequest_iff.1 h2, h3, h4⟩

theorem ev_ack {ev : Ev} (h : EvOk ev) (ht : ev.type = .RCV_REQACK) :
    ∃ r, ev.sip = some r ∧ r.m.RequestOf "ACK" := by
  obtain ⟨r, hs⟩ := evOk_msg h (by rw [ht]; rfl)
  refine ⟨r, hs, ?_⟩
  simp only [EvOk, hs, ht] at h
  obtain ⟨-, h⟩ := h
  rw [Msg.RequestOf, ← isRequest_iff]
  rcases h with h | h
  · unfold evt_type_incoming at h; (repeat' split at h) <;> simp_all
  · unfold evt_type_outgoing at h; (repeat' split at h) <;> simp_all

theorem ev_1xx {ev : Ev} (h : EvOk ev) (ht : ev.type = .RCV_STATUS_1XX ∨ ev.type = .SND_STATUS_1XX) :
    ∃ r, ev.sip = some r ∧ r.m.ResponseOf 1 := by
  obtain ⟨r, h1, _, h2⟩ := (evOk_status h).1 ht
  exact ⟨r, h1, isStatus_iff.1 h2⟩

theorem ev_2xx {ev : Ev} (h : EvOk ev) (ht : ev.type = .RCV_STATUS_2XX ∨ ev.type = .SND_STATUS_2XX) :
    ∃ r, ev.sip = some r ∧ r.m.ResponseOf 2 := by
  obtain ⟨r, h1, _, _, h2⟩ := (evOk_status h).2.1 ht
  exact ⟨r, h1, isStatus_iff.1 h2⟩

theorem ev_3456xx {ev : Ev} (h : EvOk ev)
    (ht : ev.type = .RCV_STATUS_3456XX ∨ ev.type = .SND_STATUS_3456XX) :
    ∃ r, ev.sip = some r ∧ r.m.Rejection := by
  obtain ⟨r, h1, h0, h2, h3⟩ := (evOk_status h).2.2 ht
  exact ⟨r, h1, isRequest_false.1 h0, isStatus_false.1 h2, isStatus_false.1 h3⟩

theorem origOk_exec {env t ev t' e r} (hp : OrigOk t) (hev : EvOk ev)
    (he : osip_transaction_execute env t ev = some (t', e, r)) : OrigOk t' := by
  have h1 := fun h => ev_invite hev (Or.inl h)
  have h2 := fun h => ev_invite hev (Or.inr h)
  have h3 := fun h => ev_request hev (Or.inl h)
  have h4 := fun h => ev_request hev (Or.inr h)
  have hc := exec_ctx_type he
  cases hk : t.ctx_type
  all_goals
    fsm_exec he hk hs ht
    any_goals assumption
    all_goals (unfold OrigOk at *; simp_all)
    all_goals grind

theorem mem_freeOpt_cb {c : Cb} {r x : Option Ref} : ¬ Eff.cb c r ∈ freeOpt x := by
  cases x <;> simp [freeOpt]

theorem ict3456Cb_true {m : Msg} (h : m.Rejection) : Announces (ict3456Cb m) m ∧
    (ict3456Cb m = .ICT_STATUS_3XX_RECEIVED ∨ ict3456Cb m = .ICT_STATUS_4XX_RECEIVED ∨
     ict3456Cb m = .ICT_STATUS_5XX_RECEIVED ∨ ict3456Cb m = .ICT_STATUS_6XX_RECEIVED) := by
  unfold ict3456Cb
  (repeat' split) <;> simp_all [isStatus_iff, isStatus_false, Announces, Msg.Global]

theorem nictFinalCb_true {t : EvType} {m : Msg} (h : (t = .RCV_STATUS_2XX ∧ m.ResponseOf 2) ∨
    (t = .RCV_STATUS_3456XX ∧ m.Rejection)) : CbTrue .NICT (nictFinalCb t m) (some ⟨0, m⟩) := by
  unfold nictFinalCb
  rcases h with ⟨rfl, h⟩ | ⟨rfl, h⟩
  · exact ⟨rfl, h⟩
  · (repeat' split) <;> constructor <;>
      simp_all [isStatus_iff, isStatus_false, Announces, Msg.Global, Cb.kind]

theorem isMethod_true {m : Msg} {n : String} (h : m.isMethod n = some true) : m.RequestOf n := by
  unfold Msg.isMethod at h
  split at h
  · rename_i hr
    split at h
    · simp at h
    · rename_i meth hm
      simp only [Option.some.injEq, beq_iff_eq] at h
      exact ⟨isRequest_iff.1 hr, by rw [hm, h]⟩
  · simp at h

theorem isMethod_false {m : Msg} {n : String} (hr : m.status_code = 0) (h : m.isMethod n = some false) :
    m.sip_method ≠ some n.toList := by
  unfold Msg.isMethod at h
  rw [if_pos (isRequest_iff.2 hr)] at h
  split at h
  · simp at h
  · rename_i meth hm
    simp only [Option.some.injEq, beq_eq_false_iff_ne] at h
    rw [hm]; simpa using h

theorem nictSentCb_true {m : Msg} {c : Cb} (h : m.OtherRequest) (hc : nictSentCb m = some c) :
    CbTrue .NICT c (some ⟨0, m⟩) := by
  unfold nictSentCb at hc
  simp only [Option.bind_eq_bind, Option.pure_def] at hc
  repeat' (first
    | (rw [Option.bind_eq_some_iff] at hc
       obtain ⟨b, hb, hc⟩ := hc
       cases b
       case' true => simp only [if_true, Option.some.injEq] at hc; subst hc
                     exact ⟨rfl, isMethod_true hb⟩
       case' false => have := isMethod_false h.1 hb; simp only [Bool.false_eq_true, if_false] at hc))
  simp only [Option.some.injEq] at hc
  subst hc
  refine ⟨rfl, h, ?_⟩
  intro meth hm
  simp only [List.mem_cons, List.not_mem_nil, or_false] at hm
  rcases hm with rfl | rfl | rfl | rfl | rfl | rfl | rfl <;> assumption

theorem nistRcvCb_true {m : Msg} {c : Cb} (h : m.OtherRequest) (hc : nistRcvCb m = some c) :
    CbTrue .NIST c (some ⟨0, m⟩) := by
  unfold nistRcvCb at hc
  simp only [Option.bind_eq_bind, Option.pure_def] at hc
  repeat' (first
    | (rw [Option.bind_eq_some_iff] at hc
       obtain ⟨b, hb, hc⟩ := hc
       cases b
       case' true => simp only [if_true, Option.some.injEq] at hc; subst hc
                     exact ⟨rfl, isMethod_true hb⟩
       case' false => have := isMethod_false h.1 hb; simp only [Bool.false_eq_true, if_false] at hc))
  simp only [Option.some.injEq] at hc
  subst hc
  refine ⟨rfl, h, ?_⟩
  intro meth hm
  simp only [List.mem_cons, List.not_mem_nil, or_false] at hm
  rcases hm with rfl | rfl | rfl | rfl | rfl | rfl | rfl <;> assumption

theorem CbTrue.ref {k : Kind} {c : Cb} {r : Ref} (h : CbTrue k c (some ⟨0, r.m⟩)) :
    CbTrue k c (some r) := ⟨h.1, h.2⟩

theorem ev_timer {ev : Ev} (h : EvOk ev) (ht : ev.type.isMsg = false) : ev.sip = none := by
  cases hs : ev.sip with
  | none => rfl
  | some r =>
    exfalso
    simp only [EvOk, hs] at h
    obtain ⟨-, h⟩ := h
    rcases h with h | h <;> rw [h] at ht
    · unfold evt_type_incoming at ht; (repeat' split at ht) <;> simp [EvType.isMsg] at ht
    · unfold evt_type_outgoing at ht; (repeat' split at ht) <;> simp [EvType.isMsg] at ht

/-! ## C64 -/

theorem ackOk_exec {env t ev t' e i} (hp : IctInv t) (hk : t.ctx_type = .ICT)
    (hack : ∀ a, t.ack = some a → a.m.RequestOf "ACK") (hev : EvOk ev)
    (he : osip_transaction_execute env t ev = some (t', e, i)) :
    ∀ a, t'.ack = some a → a.m.RequestOf "ACK" := by
  have hca : ∀ o r a, ict_create_ack o r = some a → a.RequestOf "ACK" := fun o r a h =>
    ⟨isRequest_iff.1 (create_ack_method h).2.2, (create_ack_method h).1⟩
  fsm_exec he hk hs ht
  all_goals
    intro a ha
    first
      | exact hack a ha
      | (simp only [Option.some.injEq] at ha; subst ha; exact hca _ _ _ ‹_›)
      | (exfalso; simp at ha; done)

/-- `CbTrue` for an effect. -/
def EffTrue (k : Kind) : Eff → Prop
  | .cb c r => CbTrue k c r
  | _ => True

theorem effTrue_freeOpt {k : Kind} (r : Option Ref) : ∀ x ∈ freeOpt r, EffTrue k x := by
  cases r <;> simp [freeOpt, EffTrue]

theorem effTrue_dropMsg {k : Kind} (ev : Ev) : ∀ x ∈ dropMsg ev, EffTrue k x := by
  unfold dropMsg
  split
  · exact effTrue_freeOpt _
  · simp

theorem effTrue_cb {k : Kind} {c : Cb} {r : Option Ref} : EffTrue k (.cb c r) ↔ CbTrue k c r :=
  Iff.rfl
theorem effTrue_send {k : Kind} {r : Ref} {h p} : EffTrue k (.send r h p) ↔ True := Iff.rfl
theorem effTrue_tpErr {k j : Kind} {i} : EffTrue k (.tpErr j i) ↔ True := Iff.rfl
theorem effTrue_kill {k j : Kind} : EffTrue k (.kill j) ↔ True := Iff.rfl
theorem effTrue_new {k : Kind} {i} : EffTrue k (.newMsg i) ↔ True := Iff.rfl
theorem effTrue_free {k : Kind} {i} : EffTrue k (.freeMsg i) ↔ True := Iff.rfl

macro "cb_goals" : tactic => `(tactic| (
  all_goals
    try simp only [List.forall_mem_append, List.forall_mem_cons, effTrue_cb, effTrue_send,
      effTrue_tpErr, effTrue_kill, effTrue_new, effTrue_free, true_and, and_true]
    try and_intros
  all_goals try first
    | exact effTrue_freeOpt _
    | exact effTrue_dropMsg _
    | exact trivial
    | (intro x hx; exact absurd hx List.not_mem_nil)))

theorem cb3456 {ev : Ev} {r : Ref} (hev : EvOk ev) (ht : ev.type = .RCV_STATUS_3456XX)
    (hs : ev.sip = some r) : CbTrue .ICT (ict3456Cb r.m) ev.sip := by
  obtain ⟨x, hx, hy⟩ := ev_3456xx hev (Or.inl ht)
  rw [hs] at hx ⊢
  simp only [Option.some.injEq] at hx
  subst hx
  obtain ⟨h1, h2⟩ := ict3456Cb_true hy
  refine ⟨?_, h1⟩
  rcases h2 with h | h | h | h <;> rw [h] <;> rfl

theorem cb_true_ict {env t ev t' e i} (hp : IctInv t) (ho : OrigOk t) (hk : t.ctx_type = .ICT)
    (hack : ∀ a, t.ack = some a → a.m.RequestOf "ACK") (hev : EvOk ev)
    (he : osip_transaction_execute env t ev = some (t', e, i)) : ∀ x ∈ e, EffTrue .ICT x := by
  have hca : ∀ o r a, ict_create_ack o r = some a → a.RequestOf "ACK" := fun o r a h =>
    ⟨isRequest_iff.1 (create_ack_method h).2.2, (create_ack_method h).1⟩
  obtain ⟨-, -, p3, -, p5, -, -⟩ := hp
  have hor : t.state ≠ .ICT_PRE_CALLING → ∃ x, t.orig_request = some x ∧ x.m.RequestOf "INVITE" := by
    intro h
    obtain ⟨x, hx, _⟩ := p3 h
    have := ho x hx
    rw [hk] at this
    exact ⟨x, hx, this⟩
  fsm_exec he hk hs ht
  cb_goals
  all_goals first
    | (obtain ⟨x, hx, hy⟩ := ev_invite hev (Or.inr ht); rw [hx]; exact ⟨rfl, hy⟩)
    | (obtain ⟨x, hx, hy⟩ := ev_1xx hev (Or.inl ht); rw [hx]; exact ⟨rfl, hy⟩)
    | (obtain ⟨x, hx, hy⟩ := ev_2xx hev (Or.inl ht); rw [hx]; exact ⟨rfl, hy⟩)
    | (obtain ⟨x, hx, hy⟩ := ev_3456xx hev (Or.inl ht); rw [hx]; exact ⟨rfl, hy⟩)
    | (obtain ⟨x, hx, hy⟩ := hor (by rw [hs]; simp); rw [hx]; exact ⟨rfl, hy⟩)
    | (rw [ev_timer hev (by rw [ht]; rfl)]; exact ⟨rfl, Or.inl rfl⟩)
    | exact cb3456 hev ht ‹_›
    | exact ⟨rfl, hca _ _ _ ‹_›⟩
    | (obtain ⟨x, hx⟩ := Option.isSome_iff_exists.1 (p5 hs); rw [hx]; exact ⟨rfl, hack x hx⟩)
    | (exfalso; exact absurd hs ‹_›)
    | skip

theorem cbFinal {ev : Ev} {r : Ref} (hev : EvOk ev)
    (ht : ev.type = .RCV_STATUS_2XX ∨ ev.type = .RCV_STATUS_3456XX)
    (hs : ev.sip = some r) : CbTrue .NICT (nictFinalCb ev.type r.m) ev.sip := by
  rcases ht with ht | ht
  · obtain ⟨x, hx, hy⟩ := ev_2xx hev (Or.inl ht)
    rw [hs] at hx ⊢
    simp only [Option.some.injEq] at hx
    subst hx
    exact (nictFinalCb_true (Or.inl ⟨ht, hy⟩)).ref
  · obtain ⟨x, hx, hy⟩ := ev_3456xx hev (Or.inl ht)
    rw [hs] at hx ⊢
    simp only [Option.some.injEq] at hx
    subst hx
    exact (nictFinalCb_true (Or.inr ⟨ht, hy⟩)).ref

theorem cbSent {ev : Ev} {r : Ref} {c : Cb} (hev : EvOk ev) (ht : ev.type = .SND_REQUEST)
    (hs : ev.sip = some r) (hc : nictSentCb r.m = some c) : CbTrue .NICT c ev.sip := by
  obtain ⟨x, hx, hy⟩ := ev_request hev (Or.inr ht)
  rw [hs] at hx ⊢
  simp only [Option.some.injEq] at hx
  subst hx
  exact (nictSentCb_true hy hc).ref

theorem cb_true_nict {env t ev t' e i} (hp : NictInv t) (ho : OrigOk t) (hk : t.ctx_type = .NICT)
    (hev : EvOk ev)
    (he : osip_transaction_execute env t ev = some (t', e, i)) : ∀ x ∈ e, EffTrue .NICT x := by
  have hor : ∀ r, t.orig_request = some r → CbTrue .NICT .NICT_REQUEST_SENT_AGAIN t.orig_request := by
    intro r hr
    have := ho r hr
    rw [hk] at this
    rw [hr]; exact ⟨rfl, this⟩
  fsm_exec he hk hs ht
  cb_goals
  all_goals first
    | exact cbFinal hev (Or.inl ht) ‹_›
    | exact cbFinal hev (Or.inr ht) ‹_›
    | exact cbSent hev ht ‹_› ‹_›
    | exact hor _ ‹_›
    | (obtain ⟨x, hx, hy⟩ := ev_1xx hev (Or.inl ht); rw [hx]; exact ⟨rfl, hy⟩)
    | (rw [ev_timer hev (by rw [ht]; rfl)]; exact ⟨rfl, Or.inr rfl⟩)
    | (exfalso; exact absurd hs ‹_›)
    | skip

theorem again_cb {k : Kind} {r : Ref} {o : Option Ref} {c1 c2 c3 : Cb} (ho : o = some r)
    (hr : r.m.isRequest = false)
    (h1 : c1.kind = k ∧ ∀ m, Announces c1 m = m.ResponseOf 1)
    (h2 : c2.kind = k ∧ ∀ m, Announces c2 m = m.ResponseOf 2)
    (h3 : c3.kind = k ∧ ∀ m, Announces c3 m = m.Rejection) :
    CbTrue k (if r.m.isStatus 1 then c1 else if r.m.isStatus 2 then c2 else c3) o := by
  subst ho
  (repeat' split) <;> rename_i h
  · exact ⟨h1.1, by simp only [h1.2]; exact isStatus_iff.1 h⟩
  · exact ⟨h2.1, by simp only [h2.2]; exact isStatus_iff.1 h⟩
  · rename_i h'
    refine ⟨h3.1, ?_⟩
    simp only [h3.2]
    rw [Bool.not_eq_true] at h h'
    exact ⟨isRequest_false.1 hr, isStatus_false.1 h', isStatus_false.1 h⟩

theorem sent_cb {k : Kind} {r : Ref} {o : Option Ref} {c3 c4 c5 c6 : Cb} (ho : o = some r)
    (hr : r.m.Rejection)
    (h3 : c3.kind = k ∧ ∀ m, Announces c3 m = m.ResponseOf 3)
    (h4 : c4.kind = k ∧ ∀ m, Announces c4 m = m.ResponseOf 4)
    (h5 : c5.kind = k ∧ ∀ m, Announces c5 m = m.ResponseOf 5)
    (h6 : c6.kind = k ∧ ∀ m, Announces c6 m = m.Global) :
    CbTrue k (if r.m.isStatus 3 then c3 else if r.m.isStatus 4 then c4
      else if r.m.isStatus 5 then c5 else c6) o := by
  subst ho
  (repeat' split) <;> rename_i h
  · exact ⟨h3.1, by simp only [h3.2]; exact isStatus_iff.1 h⟩
  · exact ⟨h4.1, by simp only [h4.2]; exact isStatus_iff.1 h⟩
  · exact ⟨h5.1, by simp only [h5.2]; exact isStatus_iff.1 h⟩
  · rename_i h' h''
    refine ⟨h6.1, ?_⟩
    simp only [h6.2]
    rw [Bool.not_eq_true] at h h' h''
    exact ⟨hr, isStatus_false.1 h', isStatus_false.1 h'', isStatus_false.1 h⟩

theorem cb_true_ist {env t ev t' e i} (hp : IstInv t) (ho : OrigOk t) (hk : t.ctx_type = .IST)
    (hev : EvOk ev)
    (he : osip_transaction_execute env t ev = some (t', e, i)) : ∀ x ∈ e, EffTrue .IST x := by
  obtain ⟨-, -, p3, -, p5, p6⟩ := hp
  have hor : t.state ≠ .IST_PRE_PROCEEDING → CbTrue .IST .IST_INVITE_RECEIVED_AGAIN t.orig_request := by
    intro h
    obtain ⟨r, hr⟩ := p3 h
    have := ho r hr
    rw [hk] at this
    rw [hr]; exact ⟨rfl, this⟩
  have hlast : ∀ r, t.last_response = some r → t.state = .IST_PROCEEDING ∨ t.state = .IST_COMPLETED →
      r.m.isRequest = false := by
    intro r hr h
    rcases h with h | h
    · exact (p6 h r hr).2.1
    · obtain ⟨x, hx, _, h2, _⟩ := p5 (Or.inl h)
      rw [hr] at hx; simp only [Option.some.injEq] at hx; rw [hx]; exact h2
  have hg : t.state = .IST_COMPLETED → CbTrue .IST .IST_STATUS_3456XX_SENT_AGAIN t.last_response := by
    intro h
    obtain ⟨x, hx, _, h2, h3, h4⟩ := p5 (Or.inl h)
    rw [hx]
    exact ⟨rfl, isRequest_false.1 h2, isStatus_false.1 h3, isStatus_false.1 h4⟩
  fsm_exec he hk hs ht
  cb_goals
  all_goals first
    | exact hor ‹_›
    | exact hg hs
    | exact again_cb ‹_› (hlast _ ‹_› (Or.inl hs)) ⟨rfl, fun _ => rfl⟩ ⟨rfl, fun _ => rfl⟩ ⟨rfl, fun _ => rfl⟩
    | exact again_cb ‹_› (hlast _ ‹_› (Or.inr hs)) ⟨rfl, fun _ => rfl⟩ ⟨rfl, fun _ => rfl⟩ ⟨rfl, fun _ => rfl⟩
    | (obtain ⟨x, hx, hy⟩ := ev_3456xx hev (Or.inr ht)
       refine sent_cb ‹_› ?_ ⟨rfl, fun _ => rfl⟩ ⟨rfl, fun _ => rfl⟩ ⟨rfl, fun _ => rfl⟩ ⟨rfl, fun _ => rfl⟩
       simp_all; done)
    | (obtain ⟨x, hx, hy⟩ := ev_invite hev (Or.inl ht); rw [hx]; exact ⟨rfl, hy⟩)
    | (obtain ⟨x, hx, hy⟩ := ev_ack hev ht; rw [hx]; (try split) <;> exact ⟨rfl, hy⟩)
    | (obtain ⟨x, hx, hy⟩ := ev_1xx hev (Or.inr ht); rw [hx]; exact ⟨rfl, hy⟩)
    | (obtain ⟨x, hx, hy⟩ := ev_2xx hev (Or.inr ht); rw [hx]; exact ⟨rfl, hy⟩)
    | (exfalso; exact absurd hs ‹_›)
    | skip

theorem cb_true_nist {env t ev t' e i} (hp : NistInv t) (ho : OrigOk t) (hk : t.ctx_type = .NIST)
    (hev : EvOk ev)
    (he : osip_transaction_execute env t ev = some (t', e, i)) : ∀ x ∈ e, EffTrue .NIST x := by
  obtain ⟨-, -, p3, -, p4, p5, p6⟩ := hp
  have hor : t.state ≠ .NIST_PRE_TRYING → CbTrue .NIST .NIST_REQUEST_RECEIVED_AGAIN t.orig_request := by
    intro h
    obtain ⟨r, hr⟩ := p3 h
    have := ho r hr
    rw [hk] at this
    rw [hr]; exact ⟨rfl, this⟩
  have hlast : ∀ r, t.last_response = some r →
      t.state = .NIST_TRYING ∨ t.state = .NIST_PROCEEDING ∨ t.state = .NIST_COMPLETED →
      r.m.isRequest = false := by
    intro r hr h
    rcases h with h | h | h
    · rw [p4 h] at hr; simp at hr
    · obtain ⟨x, hx, _, h2, _⟩ := p6 h
      rw [hr] at hx; simp only [Option.some.injEq] at hx; rw [hx]; exact h2
    · obtain ⟨x, hx, _, h2, _⟩ := p5 h
      rw [hr] at hx; simp only [Option.some.injEq] at hx; rw [hx]; exact h2
  have hrcv : ∀ r c, ev.type = .RCV_REQUEST → ev.sip = some r → nistRcvCb r.m = some c →
      CbTrue .NIST c ev.sip := by
    intro r c ht hs hc
    obtain ⟨x, hx, hy⟩ := ev_request hev (Or.inl ht)
    rw [hs] at hx ⊢
    simp only [Option.some.injEq] at hx
    subst hx
    exact (nistRcvCb_true hy hc).ref
  fsm_exec he hk hs ht
  cb_goals
  all_goals first
    | exact hor ‹_›
    | exact hrcv _ _ ht ‹_› ‹_›
    | exact again_cb ‹_› (hlast _ ‹_› (by rw [hs]; simp)) ⟨rfl, fun _ => rfl⟩ ⟨rfl, fun _ => rfl⟩ ⟨rfl, fun _ => rfl⟩
    | (obtain ⟨x, hx, hy⟩ := ev_1xx hev (Or.inr ht); rw [hx]; exact ⟨rfl, hy⟩)
    | (obtain ⟨x, hx, hy⟩ := ev_2xx hev (Or.inr ht); rw [hx]; (try rw [if_pos ht]); exact ⟨rfl, hy⟩)
    | (obtain ⟨x, hx, hy⟩ := ev_3456xx hev (Or.inr ht)
       rw [if_neg (by rw [ht]; simp)]
       refine sent_cb ‹_› ?_ ⟨rfl, fun _ => rfl⟩ ⟨rfl, fun _ => rfl⟩ ⟨rfl, fun _ => rfl⟩ ⟨rfl, fun _ => rfl⟩
       simp_all; done)
    | (exfalso; exact absurd hs ‹_›)
    | skip

/-- **C64.** In every execution of every transaction, each callback made belongs to the kind of the
transaction and tells the truth about the message it hands over: the method of a request, the class
of a response. Only the timeout callbacks hand over no message. -/
theorem c64_callback_type {k : Kind} {w : World} (h : Reach k w) :
    ∀ c r, Eff.cb c r ∈ w.trace → CbTrue k c r := by
  have key : ∀ x ∈ w.trace, EffTrue k x := by
    have hnew : ∀ (tr : List Eff) (id : Nat), (∀ x ∈ tr, EffTrue k x) →
        ∀ x ∈ tr ++ [.newMsg id], EffTrue k x := by
      intro tr id h x hx
      rcases List.mem_append.1 hx with hx | hx
      · exact h x hx
      · simp only [List.mem_singleton] at hx; rw [hx]; trivial
    have happ : ∀ (a b : List Eff), (∀ x ∈ a, EffTrue k x) → (∀ x ∈ b, EffTrue k x) →
        ∀ x ∈ a ++ b, EffTrue k x := by
      intro a b ha hb x hx
      rcases List.mem_append.1 hx with hx | hx
      · exact ha x hx
      · exact hb x hx
    have horig : ∀ n1 n2 req t, transactionInit k n1 n2 req = some (.ok t) → OrigOk t := by
      intro n1 n2 req t hi r hr
      obtain ⟨_, h2, _⟩ := init_shape hi
      rw [h2] at hr; simp at hr
    cases k with
    | ICT =>
      refine (reach_inv (k := .ICT) (P := fun t tr => IctInv t ∧ OrigOk t ∧
        (∀ a, t.ack = some a → a.m.RequestOf "ACK") ∧ ∀ x ∈ tr, EffTrue .ICT x) ?_ ?_ ?_ h).2.2.2
      · intro n1 n2 req t hi
        obtain ⟨_, _, _, h3, h4⟩ := init_shape hi
        refine ⟨ictInv_init hi, horig _ _ _ _ hi, ?_, by simp⟩
        intro a ha; simp_all
      · rintro t tr id ⟨h1, h2, h3, h4⟩
        exact ⟨h1, h2, h3, hnew _ _ h4⟩
      · rintro env t tr ev t' e r ⟨h1, h2, h3, h4⟩ hk hev he
        exact ⟨ictInv_exec h1 hk hev he, origOk_exec h2 hev he, ackOk_exec h1 hk h3 hev he,
          happ _ _ h4 (cb_true_ict h1 h2 hk h3 hev he)⟩
    | NICT =>
      refine (reach_inv (k := .NICT) (P := fun t tr => NictInv t ∧ OrigOk t ∧
        ∀ x ∈ tr, EffTrue .NICT x) ?_ ?_ ?_ h).2.2
      · intro n1 n2 req t hi
        exact ⟨nictInv_init hi, horig _ _ _ _ hi, by simp⟩
      · rintro t tr id ⟨h1, h2, h4⟩
        exact ⟨h1, h2, hnew _ _ h4⟩
      · rintro env t tr ev t' e r ⟨h1, h2, h4⟩ hk hev he
        exact ⟨nictInv_exec h1 hk hev he, origOk_exec h2 hev he,
          happ _ _ h4 (cb_true_nict h1 h2 hk hev he)⟩
    | IST =>
      refine (reach_inv (k := .IST) (P := fun t tr => IstInv t ∧ OrigOk t ∧
        ∀ x ∈ tr, EffTrue .IST x) ?_ ?_ ?_ h).2.2
      · intro n1 n2 req t hi
        exact ⟨istInv_init hi, horig _ _ _ _ hi, by simp⟩
      · rintro t tr id ⟨h1, h2, h4⟩
        exact ⟨h1, h2, hnew _ _ h4⟩
      · rintro env t tr ev t' e r ⟨h1, h2, h4⟩ hk hev he
        exact ⟨istInv_exec h1 hk hev he, origOk_exec h2 hev he,
          happ _ _ h4 (cb_true_ist h1 h2 hk hev he)⟩
    | NIST =>
      refine (reach_inv (k := .NIST) (P := fun t tr => NistInv t ∧ OrigOk t ∧
        ∀ x ∈ tr, EffTrue .NIST x) ?_ ?_ ?_ h).2.2
      · intro n1 n2 req t hi
        exact ⟨nistInv_init hi, horig _ _ _ _ hi, by simp⟩
      · rintro t tr id ⟨h1, h2, h4⟩
        exact ⟨h1, h2, hnew _ _ h4⟩
      · rintro env t tr ev t' e r ⟨h1, h2, h4⟩ hk hev he
        exact ⟨nistInv_exec h1 hk hev he, origOk_exec h2 hev he,
          happ _ _ h4 (cb_true_nist h1 h2 hk hev he)⟩
  exact fun c r hc => key _ hc

/-! ## Examples -/

/-- The callbacks of a run with the methods and codes of their messages. -/
def cbLog (tr : List Eff) : List (Cb × Int) :=
  tr.filterMap fun x => match x with
    | .cb c (some r) => some (c, r.m.status_code)
    | .cb c none => some (c, -1)
    | _ => none

open Ex in
example : (go .ICT invite ictRun).map (fun w => cbLog w.trace) =
    some [(.ICT_INVITE_SENT, 0), (.ICT_STATUS_1XX_RECEIVED, 180), (.ICT_STATUS_4XX_RECEIVED, 486),
      (.ICT_ACK_SENT, 0), (.ICT_STATUS_3456XX_RECEIVED_AGAIN, 486), (.ICT_ACK_SENT_AGAIN, 0)] := by
  decide +kernel

open Ex in
example : (go .NIST (request "UDP" "BYE")
      [.incoming (request "UDP" "BYE"), x, .outgoing (response 503 "UDP" "BYE"), x]).map
      (fun w => cbLog w.trace) =
    some [(.NIST_BYE_RECEIVED, 0), (.NIST_STATUS_5XX_SENT, 503)] := by
  decide +kernel

/-- The limit of "6xx": the state machines only exclude the classes 1 to 5, so the code 50, which is
no SIP status code, is announced as 6xx. -/
example : (Ex.go .NICT Ex.options
      [.outgoing Ex.options, Ex.x, .incoming (Ex.response 50 "UDP" "OPTIONS"), Ex.x]).map
      (fun w => cbLog w.trace) =
    some [(.NICT_OPTIONS_SENT, 0), (.NICT_STATUS_6XX_RECEIVED, 50)] := by
  decide +kernel

end Osip
