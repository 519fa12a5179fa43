import Verif.Wire.Model
import Verif.Match.PropsWire
import Verif.Dialog.PropsPeers
import Verif.Parse.PropsSafe
import Verif.Parse.PropsRead
import Verif.Parse.PropsMessage

/-!
# Bytes from the network and the transactions they reach: C117
-/

set_option autoImplicit false

namespace Osip

/-- The hash table is the one which `parser_init` made. -/
def Reader.Ready (r : Reader) : Prop := parser_init r.signed false = some r.table

theorem Reader.Ready.table {r : Reader} (h : r.Ready) : r.table = theTable r.signed false := by
  unfold Reader.Ready at h
  rw [parser_init_ok] at h
  exact (Option.some.inj h).symm

/-! ## Events -/

theorem parse_event {r : Reader} {bytes : List Char} {ty : EvType} {m : SipMessage}
    (h : osip_parse r bytes = some (some (ty, m))) :
    osip_message_parse r.sscanf r.sscanfD r.signed r.table bytes = some (OSIP_SUCCESS, m) ∧ ty = evt_type_incoming m.view := by
  unfold osip_parse at h
  simp only [Option.bind_eq_bind, Option.bind_eq_some_iff, Option.pure_def] at h
  obtain ⟨⟨i, m'⟩, h1, h⟩ := h
  simp only at h
  split at h
  · simp at h
  next hi =>
  have hi : i = 0 := by simpa using hi
  subst hi
  split at h
  · split at h
    · simp at h
    · simp only [Option.some.injEq, Prod.mk.injEq] at h
      obtain ⟨rfl, rfl⟩ := h
      exact ⟨h1, rfl⟩
  · simp only [Option.some.injEq, Prod.mk.injEq] at h
    obtain ⟨rfl, rfl⟩ := h
    exact ⟨h1, rfl⟩

theorem read_event {r : Reader} (hr : r.Ready) {bytes : List Char} {m : SipMessage}
    (h : osip_message_parse r.sscanf r.sscanfD r.signed r.table bytes = some (OSIP_SUCCESS, m)) :
    osip_parse r bytes = some (some (evt_type_incoming m.view, m)) := by
  have hw : m.start.Whole := by
    rw [hr.table] at h
    exact (c90_read_message h).1
  unfold osip_parse
  rw [h]
  simp only [Option.bind_eq_bind, Option.bind_some, OSIP_SUCCESS, ne_eq, not_true_eq_false, if_false, Option.pure_def]
  rcases hw with ⟨me, u, ve, -, -, e⟩ | ⟨ve, co, re, hc, e⟩
  · rw [e]; simp
  · rw [e]; simp [hc]

/-- **C117** (events). Every message that is read becomes an event. The type of the event tells what the message is. A request
has a method and a Request-URI, a response has a status code. -/
theorem c117_event {r : Reader} (hr : r.Ready) {bytes : List Char} {m : SipMessage} :
    ((∃ ty, osip_parse r bytes = some (some (ty, m))) ↔
      osip_message_parse r.sscanf r.sscanfD r.signed r.table bytes = some (OSIP_SUCCESS, m)) ∧
    ∀ ty, osip_parse r bytes = some (some (ty, m)) →
      (m.start.status_code = 0 → m.start.sip_method ≠ none ∧ m.start.req_uri ≠ none) ∧
      (ty = .RCV_REQINVITE ↔ m.start.status_code = 0 ∧ m.start.sip_method = some "INVITE".toList) ∧
      (ty = .RCV_REQACK ↔ m.start.status_code = 0 ∧ m.start.sip_method = some "ACK".toList) ∧
      (ty = .RCV_REQUEST ↔ m.start.status_code = 0 ∧ m.start.sip_method ≠ some "INVITE".toList ∧ m.start.sip_method ≠ some "ACK".toList) ∧
      (ty = .RCV_STATUS_1XX ↔ 100 ≤ m.start.status_code ∧ m.start.status_code < 200) ∧
      (ty = .RCV_STATUS_2XX ↔ 200 ≤ m.start.status_code ∧ m.start.status_code < 300) ∧
      (ty = .RCV_STATUS_3456XX ↔ m.start.status_code ≠ 0 ∧ ¬ (100 ≤ m.start.status_code ∧ m.start.status_code < 300)) := by
  constructor
  · constructor
    · rintro ⟨ty, h⟩
      exact (parse_event h).1
    · exact fun h => ⟨_, read_event hr h⟩
  · intro ty h
    obtain ⟨h1, rfl⟩ := parse_event h
    have hw : m.start.Whole := by
      rw [hr.table] at h1
      exact (c90_read_message h1).1
    refine ⟨?_, ?_⟩
    · rcases hw with ⟨me, u, ve, -, -, e⟩ | ⟨ve, co, re, hc, e⟩
      · rw [e]; simp
      · rw [e]; simp [hc]
    have hne : ¬ "ACK".toList = "INVITE".toList := by decide
    simp only [evt_type_incoming, Msg.isRequest, Msg.isStatus, SipMessage.view]
    refine ⟨?_, ?_, ?_, ?_, ?_, ?_⟩ <;> grind

/-! ## No bytes crash a program -/

theorem step_counter {s s' : Stack} {o : SOp} (h : s.step o = some s') : s'.transactionid ≤ s.transactionid + 1 := by
  have hc : ∀ {s s' : Stack} {evt : MsgEv} {n1 n2 : TimeVal} {r : Option Entry},
      osip_create_transaction s evt n1 n2 = some (s', r) → s'.transactionid ≤ s.transactionid + 1 := by
    intro s s' evt n1 n2 r h
    rcases create_cases h with ⟨rfl, _⟩ | ⟨k, _, h2⟩
    · omega
    · rcases transaction_init_cases h2 with ⟨rfl, -⟩ | ⟨rfl, -⟩ | ⟨e, -, -, -, -, rfl⟩
      · omega
      · unfold osip_remove_transaction
        split
        · rw [setList_id]; exact Int.le_refl _
        · exact Int.le_refl _
      · rw [setList_id]; exact Int.le_refl _
  cases o with
  | receive m n1 n2 =>
    rcases receive_cases h with rfl | ⟨ha, ⟨i, h1⟩ | ⟨_, h1 | ⟨s1, e, h1, rfl⟩⟩⟩
    · omega
    · have := (find_add_advanced (evt := { incoming := true, m }) ha h1).counter
      omega
    · exact hc h1
    · rw [setList_id]; exact hc h1
  | deliver evt =>
    simp only [Stack.step] at h
    split at h
    · next ha =>
      simp only [Option.map_eq_some_iff, Prod.exists] at h
      obtain ⟨s1, i, h1, rfl⟩ := h
      have := (find_add_advanced ha h1).counter
      omega
    · simp only [Option.some.injEq] at h; subst h; omega
  | create evt n1 n2 =>
    simp only [Stack.step] at h
    split at h
    · simp only [Option.map_eq_some_iff, Prod.exists] at h
      obtain ⟨s1, r, h1, rfl⟩ := h
      exact hc h1
    · simp only [Option.some.injEq] at h; subst h; omega
  | remove k id =>
    simp only [Stack.step, Option.some.injEq] at h
    subst h
    unfold osip_remove_transaction
    split
    · rw [setList_id]; omega
    · show s.transactionid ≤ s.transactionid + 1
      omega
  | act id op =>
    have := (act_advanced h).counter
    omega

/-- The operations on the stack which an operation of the program amounts to. -/
theorem net_step {r : Reader} {s s' : Stack} {o : NetOp} (h : s.net r o = some s') :
    s' = s ∨ ∃ o', s.step o' = some s' := by
  cases o with
  | datagram bytes src n1 n2 =>
    simp only [Stack.net, Stack.datagram, Option.bind_eq_bind, Option.bind_eq_some_iff] at h
    obtain ⟨q, hq, h⟩ := h
    split at h
    · exact .inl (by simpa using h.symm)
    · exact .inr ⟨_, h⟩
  | deliver evt => exact .inr ⟨.deliver evt, h⟩
  | create evt n1 n2 => exact .inr ⟨.create evt n1 n2, h⟩
  | remove k id => exact .inr ⟨.remove k id, h⟩
  | act id op => exact .inr ⟨.act id op, h⟩

theorem net_run {r : Reader} {ops : List NetOp} : ∀ {s s' : Stack}, s.netRun r ops = some s' → ∃ os, s.run os = some s' := by
  induction ops with
  | nil => intro s s' h; exact ⟨[], h⟩
  | cons o ops ih =>
    intro s s' h
    simp only [Stack.netRun, Option.bind_eq_bind, Option.bind_eq_some_iff] at h
    obtain ⟨s1, h1, h2⟩ := h
    obtain ⟨os, hos⟩ := ih h2
    rcases net_step h1 with rfl | ⟨o', ho'⟩
    · exact ⟨os, hos⟩
    · exact ⟨o' :: os, by simp [Stack.run, ho', hos]⟩

theorem arrived_arrives (m : Msg) (src : Option (Str × Int)) : Arrives m (arrived m src) := by
  cases src with
  | none => exact .inl rfl
  | some p =>
    obtain ⟨ip, port⟩ := p
    refine .inr ⟨ip, port, ?_⟩
    have : ∃ m', (fix_last_via_header (some m) ip port).2 = some m' := by
      unfold fix_last_via_header
      simp only
      repeat' split
      all_goals exact ⟨_, rfl⟩
    obtain ⟨m', h⟩ := this
    rw [h, arrived, h]
    rfl

theorem cseq_read {m : SipMessage} (h : Copyable m) {c : CSeq} (hc : m.view.cseq = some c) : c.method.isSome = true := by
  simp only [SipMessage.view] at hc
  have hm := List.mem_of_head? hc
  rw [List.mem_filterMap] at hm
  obtain ⟨x, hx, he⟩ := hm
  cases x <;> simp only [HeaderVal.cseq?, Option.some.injEq, reduceCtorEq] at he
  subst he
  have := h.known .cseq _ hx
  simp only [HeaderVal.Complete] at this
  exact Option.isSome_iff_ne_none.2 this.1

/-- What has to be excluded: bytes which the parser does not read safely (`c89_violated`), and an ACK without To header. Of its
own messages the program guarantees that a CSeq header has a method and an ACK a To header. -/
def NetOp.Harmless (r : Reader) : NetOp → Prop
  | .datagram bytes _ _ _ =>
    ¬ EndsInFold (afterLineEnds bytes) ∧ (∀ text, Blanked (afterLineEnds bytes) text → ¬ TightBoundaries text) ∧
    ∀ ty m, osip_parse r bytes = some (some (ty, m)) → m.start.sip_method = some "ACK".toList → m.view.to ≠ none
  | .deliver ⟨_, m, _⟩ | .create ⟨_, m, _⟩ _ _ =>
    (∀ c, m.cseq = some c → c.method ≠ none) ∧ (m.sip_method = some "ACK".toList → m.to ≠ none)
  | _ => True

/-- **C117** (no bytes crash a program). Whatever bytes arrive, in whatever order, mixed with whatever the program, the transactions
and their timers do: parsing, dispatching and executing have a defined outcome. -/
theorem c117_no_crash_partial {r : Reader} (hr : r.Ready) (ops : List NetOp) (hlen : ops.length < 2 ^ 31 - 1)
    (hok : ∀ o ∈ ops, o.Harmless r) : ∃ s, ({} : Stack).netRun r ops = some s := by
  have one : ∀ {s : Stack} {o : NetOp}, StackReach s → s.transactionid < 2 ^ 31 - 1 → o.Harmless r →
      ∃ s', s.net r o = some s' := by
    intro s o hs hid ho
    cases o with
    | datagram bytes src n1 n2 =>
      obtain ⟨g1, g2, g3⟩ := ho
      obtain ⟨⟨i, m⟩, hp⟩ := c89_in_bounds_partial r.sscanf r.sscanfD r.signed bytes g1 g2
      simp only [Stack.net, Stack.datagram]
      have : ∃ q, osip_parse r bytes = some q := by
        unfold osip_parse
        rw [hr.table, hp]
        simp only [Option.bind_eq_bind, Option.bind_some, Option.pure_def]
        repeat' split
        all_goals exact ⟨_, rfl⟩
      obtain ⟨q, hq⟩ := this
      rw [hq]
      cases q with
      | none => exact ⟨s, rfl⟩
      | some q =>
        obtain ⟨ty, m⟩ := q
        have hread := (parse_event hq).1
        rw [hr.table] at hread
        obtain ⟨-, -, -, hcopy, -, -⟩ := c90_read_message hread
        have harr := arrives_rest (arrived_arrives m.view src)
        refine Option.isSome_iff_exists.1 (c62_step_partial hs hid (o := .receive (arrived m.view src) n1 n2) ⟨?_, ?_⟩)
        · intro c hc
          rw [harr] at hc
          exact cseq_read hcopy hc
        · intro hack
          rw [harr] at hack ⊢
          exact Option.isSome_iff_ne_none.2 (g3 ty m hq hack)
    | deliver evt =>
      obtain ⟨inc, m, id⟩ := evt
      obtain ⟨g1, g2⟩ := ho
      exact Option.isSome_iff_exists.1 (c62_step_partial hs hid (o := .deliver ⟨inc, m, id⟩)
        ⟨fun c hc => Option.isSome_iff_ne_none.2 (g1 c hc), fun h => Option.isSome_iff_ne_none.2 (g2 h)⟩)
    | create evt n1 n2 =>
      obtain ⟨inc, m, id⟩ := evt
      obtain ⟨g1, g2⟩ := ho
      exact Option.isSome_iff_exists.1 (c62_step_partial hs hid (o := .create ⟨inc, m, id⟩ n1 n2)
        ⟨fun c hc => Option.isSome_iff_ne_none.2 (g1 c hc), fun h => Option.isSome_iff_ne_none.2 (g2 h)⟩)
    | remove k id => exact Option.isSome_iff_exists.1 (c62_step_partial hs hid (o := .remove k id) trivial)
    | act id op => exact Option.isSome_iff_exists.1 (c62_step_partial hs hid (o := .act id op) trivial)
  have all : ∀ (ops : List NetOp) (s : Stack), StackReach s → s.transactionid + ops.length < 2 ^ 31 →
      (∀ o ∈ ops, o.Harmless r) → ∃ s', s.netRun r ops = some s' := by
    intro ops
    induction ops with
    | nil => intro s _ _ _; exact ⟨s, rfl⟩
    | cons o ops ih =>
      intro s hs hl ho
      simp only [List.length_cons] at hl
      obtain ⟨s1, h1⟩ := one hs (by omega) (ho o (by simp))
      have hs1 : StackReach s1 ∧ s1.transactionid ≤ s.transactionid + 1 := by
        rcases net_step h1 with rfl | ⟨o', h⟩
        · exact ⟨hs, by omega⟩
        · exact ⟨hs.step h, step_counter h⟩
      obtain ⟨s2, h2⟩ := ih s1 hs1.1 (by omega) fun x hx => ho x (by simp [hx])
      exact ⟨s2, by simp [Stack.netRun, h1, h2]⟩
  exact all ops {} ⟨[], rfl⟩ (by change (1 : Int) + _ < _; omega) hok

/-! ## Messages as text -/

/-- `text` is what one end writes for the message `m`. -/
structure WrittenAs (fresh : Nat → Buf) (m : SipMessage) (text : List Char) : Prop where
  wf : WfMessage fresh m
  new : m.cached = none
  text : ∃ m', osip_message_to_str fresh false m = some (OSIP_SUCCESS, m', some text)

/-- **C117** (text keeps what the transactions look at). The text of a well-formed message becomes an event at the other end. The
transactions and dialogs of both ends see the same in it. -/
theorem c117_text {fresh : Nat → Buf} (hf : ∀ n, (fresh n).length = n) {r : Reader} (hr : r.Ready) (h1 : SscanfOk r.sscanf)
    (h2 : SscanfDOk r.sscanfD) {m : SipMessage} {text : List Char} (h : WrittenAs fresh m text) :
    ∃ m', osip_parse r text = some (some (evt_type_incoming m.view, m')) ∧ m'.view = m.view := by
  obtain ⟨text', m', e1, e2⟩ := c88_message_round_trip_partial hf h1 h2 h.wf h.new hr
  obtain ⟨m'', e3⟩ := h.text
  rw [e3] at e1
  simp only [Option.some.injEq, Prod.mk.injEq, true_and] at e1
  obtain ⟨-, rfl⟩ := e1
  exact ⟨readBack m, read_event hr e2, rfl⟩

/-- **C117** (the transactions look at the headers of the message). The event that the other end makes of the text shows the Via, Route,
Record-Route and Contact headers of the message that was written, in their order, and its From, To, Call-ID and CSeq. -/
theorem c117_headers {fresh : Nat → Buf} (hf : ∀ n, (fresh n).length = n) {r : Reader} (hr : r.Ready) (h1 : SscanfOk r.sscanf)
    (h2 : SscanfDOk r.sscanfD) {m : SipMessage} {text : List Char} (h : WrittenAs fresh m text) :
    ∃ ty m', osip_parse r text = some (some (ty, m')) ∧
      (∀ vs, m.hdr .via = vs.map .via → m'.view.vias = vs) ∧
      (∀ l, m.hdr .route = l.map .addr → m'.view.routes = l) ∧
      (∀ l, m.hdr .record_route = l.map .addr → m'.view.record_routes = l) ∧
      (∀ l, m.hdr .contact = l.map .addr → m'.view.contacts = l) ∧
      (∀ a l, m.hdr .from = .addr a :: l → m'.view.from_ = some a) ∧
      (∀ a l, m.hdr .to = .addr a :: l → m'.view.to = some a) ∧
      (∀ c l, m.hdr .call_id = .callId c :: l → m'.view.call_id = some c) ∧
      (∀ c l, m.hdr .cseq = .cseq c :: l → m'.view.cseq = some c) := by
  obtain ⟨m', e1, e2⟩ := c117_text hf hr h1 h2 h
  have map1 : ∀ vs : List Via, (vs.map HeaderVal.via).filterMap HeaderVal.via? = vs := by
    intro vs
    rw [List.filterMap_map]
    exact List.filterMap_some
  have map2 : ∀ l : List From, (l.map HeaderVal.addr).filterMap HeaderVal.addr? = l := by
    intro l
    rw [List.filterMap_map]
    exact List.filterMap_some
  refine ⟨_, m', e1, ?_, ?_, ?_, ?_, ?_, ?_, ?_, ?_⟩ <;> rw [e2] <;> simp only [SipMessage.view]
  · intro vs e; rw [e, map1]
  · intro l e; rw [e, map2]
  · intro l e; rw [e, map2]
  · intro l e; rw [e, map2]
  · intro a l e; rw [e]; rfl
  · intro a l e; rw [e]; rfl
  · intro c l e; rw [e]; rfl
  · intro c l e; rw [e]; rfl

/-- **C117** (retransmitted bytes). Bytes create a transaction. The same bytes come again from the same address, after anything else,
while the transaction is still there. If the message has a magic-cookie branch, no transaction is created then. -/
theorem c117_retransmission {r : Reader} (hr : r.Ready) {before between : List NetOp} {s s1 s2 s3 : Stack} {bytes : List Char}
    {src : Option (Str × Int)} {n1 n2 n3 n4 : TimeVal} {ty : EvType} {m : SipMessage} {v : Via} {b : Str} {k : Kind} {e e' : Entry}
    (h0 : ({} : Stack).netRun r before = some s) (h1 : s.net r (.datagram bytes src n1 n2) = some s1)
    (he : e ∈ s1.list k) (hnew : e.transactionid ∉ s.ids)
    (h2 : s1.netRun r between = some s2) (he' : e' ∈ s2.list k) (hid : e'.transactionid = e.transactionid)
    (hm : osip_parse r bytes = some (some (ty, m))) (hv : m.view.vias.head? = some v) (hb : IsBranch v b) (hg : Magic b)
    (h3 : s2.net r (.datagram bytes src n3 n4) = some s3) : s3.ids = s2.ids := by
  obtain ⟨os0, ho0⟩ := net_run h0
  obtain ⟨os2, ho2⟩ := net_run h2
  simp only [Stack.net, Stack.datagram, hm, Option.bind_eq_bind, Option.bind_some] at h1 h3
  obtain ⟨v', hv', kv⟩ := arrives_top' (arrived_arrives m.view src) hv
  exact (c20_retransmission_partial ⟨os0, ho0⟩ h1 he hnew ho2 he' hid hv' ((kv.isBranch b).2 hb) hg).2 _ _ _ h3

/-- The bytes of a message reach a transaction: the event is queued there, and nothing else happens. -/
def Reaches (r : Reader) (s : Stack) (k : Kind) (e : Entry) (text : List Char) (m : Msg) : Prop :=
  ∀ src n1 n2, s.net r (.datagram text src n1 n2) = some (s.setList k ((s.list k).map fun x =>
    if x.transactionid = e.transactionid then e.addEvent ⟨true, arrived m src, 0⟩ else x))

theorem reaches_found {s : Stack} (hs : StackReach s) {k : Kind} {e : Entry} (hmem : e ∈ s.list k) {m : Msg}
    (hfind : osip_find_transaction s { incoming := true, m } = some (some e)) (hall : evtAllowed m = true) (n1 n2 : TimeVal) :
    s.step (.receive m n1 n2) = some (s.setList k ((s.list k).map fun x =>
      if x.transactionid = e.transactionid then e.addEvent ⟨true, m, 0⟩ else x)) := by
  have hinv := stackReach_sinv hs
  obtain ⟨req, he⟩ := hinv.created k e hmem
  simp only [Stack.step, Stack.receive, hall, not_true_eq_false, if_false, osip_find_transaction_and_add_event, hfind,
    Option.bind_eq_bind, Option.bind_some, Option.pure_def, if_true, he.kind, Option.some.injEq, updateId]
  congr 1
  apply List.map_congr_left
  intro x hx
  split
  · next hid => rw [eq_of_id (hinv.sorted k) hx hmem hid]
  · rfl

/-- **C117** (a response as text). A client writes a request, the server answers with a response that has the Via headers and the CSeq
of the request as it arrived. The text of the response reaches the transaction of the request, if no other client transaction of its
kind has its branch and method. -/
theorem c117_response {fresh : Nat → Buf} (hf : ∀ n, (fresh n).length = n) {r : Reader} (hr : r.Ready) (h1 : SscanfOk r.sscanf)
    (h2 : SscanfDOk r.sscanfD) {c : Stack} {k : Kind} {req req' resp : SipMessage} {treq tresp : List Char} {ty : EvType} {e : Entry}
    {src : Option (Str × Int)} {v : Via} {b m : Str} {n : Option Str} (hs : StackReach c)
    (hk : k = if m = "INVITE".toList then .ICT else .NICT) (hmem : e ∈ c.list k) (he : CreatedBy req.view k e)
    (hreq : WrittenAs fresh req treq) (hread : osip_parse r treq = some (some (ty, req')))
    (hm : req.view.cseq = some ⟨some m, n⟩) (hv : req.view.vias.head? = some v) (hb : IsBranch v b)
    (ho : ∀ x ∈ c.list k, x ≠ e → ¬ (IsBranch x.topvia b ∧ x.cseq.method = some m))
    (hcode : resp.view.status_code ≠ 0) (hrv : resp.view.vias = (arrived req'.view src).vias)
    (hrc : resp.view.cseq = req'.view.cseq) (hresp : WrittenAs fresh resp tresp) :
    Reaches r c k e tresp resp.view := by
  obtain ⟨q, hq1, hq2⟩ := c117_text hf hr h1 h2 hreq
  rw [hread] at hq1
  simp only [Option.some.injEq, Prod.mk.injEq] at hq1
  obtain ⟨-, rfl⟩ := hq1
  obtain ⟨p, hp1, hp2⟩ := c117_text hf hr h1 h2 hresp
  intro src' n1 n2
  simp only [Stack.net, Stack.datagram, hp1, Option.bind_eq_bind, Option.bind_some]
  rw [hq2] at hrv hrc
  rw [hp2]
  have hrc' : resp.view.cseq = (arrived req.view src).cseq := by
    rw [hrc, arrives_rest (arrived_arrives req.view src)]
  have hfind := c115_response hs hk hmem he (arrived_arrives req.view src) hm hv hb ho hcode hrv hrc' (arrived_arrives _ src')
  have hall : evtAllowed (arrived resp.view src') = true := by
    rw [arrives_rest (arrived_arrives resp.view src')]
    simp [evtAllowed, Msg.isRequest, hcode]
  exact reaches_found hs hmem hfind hall n1 n2

/-- **C117** (an ACK as text). A client writes an INVITE with a magic-cookie branch. The server reads it and has a transaction for it. The
client makes an ACK from the INVITE and a response and writes it. The text reaches the transaction of the server, if every other INVITE
transaction there has a magic-cookie branch and differs in branch or sent-by. -/
theorem c117_ack {fresh : Nat → Buf} (hf : ∀ n, (fresh n).length = n) {r : Reader} (hr : r.Ready) (h1 : SscanfOk r.sscanf)
    (h2 : SscanfDOk r.sscanfD) {s : Stack} {inv inv' ack : SipMessage} {resp : Msg} {tinv tack : List Char} {ty : EvType} {e : Entry}
    {src : Option (Str × Int)} {v : Via} {b : Str} {n : Option Str} (hs : StackReach s) (hmem : e ∈ s.list .IST)
    (hinv : WrittenAs fresh inv tinv) (hread : osip_parse r tinv = some (some (ty, inv')))
    (he : CreatedBy (arrived inv'.view src) .IST e) (hm : inv.view.cseq = some ⟨some "INVITE".toList, n⟩)
    (hv : inv.view.vias.head? = some v) (hb : IsBranch v b) (hg : Magic b)
    (ho : ∀ x ∈ s.list .IST, x ≠ e → ∃ bx, IsBranch x.topvia bx ∧ Magic bx ∧ (bx ≠ b ∨ ¬ SameSentBy x.topvia v))
    (ha : ict_create_ack inv.view resp = some ack.view) (hack : WrittenAs fresh ack tack) :
    Reaches r s .IST e tack ack.view := by
  obtain ⟨q, hq1, hq2⟩ := c117_text hf hr h1 h2 hinv
  rw [hread] at hq1
  simp only [Option.some.injEq, Prod.mk.injEq] at hq1
  obtain ⟨-, rfl⟩ := hq1
  obtain ⟨p, hp1, hp2⟩ := c117_text hf hr h1 h2 hack
  intro src' n1 n2
  simp only [Stack.net, Stack.datagram, hp1, Option.bind_eq_bind, Option.bind_some]
  rw [hq2] at he
  rw [hp2]
  obtain ⟨hfind, hall⟩ := ack_lookup hs hmem (arrived_arrives inv.view src) he hm hv hb hg ho ha (arrived_arrives _ src')
  exact reaches_found hs hmem hfind hall n1 n2

/-- **C117** (dialogs over text). The callee makes a dialog when it sends a response, the caller when it has read the text of it. Both
dialogs mirror each other. The text of a request that either end builds from its dialog is recognised by the other end. -/
theorem c117_dialog {fresh : Nat → Buf} (hf : ∀ n, (fresh n).length = n) {r : Reader} (hr : r.Ready) (h1 : SscanfOk r.sscanf)
    (h2 : SscanfDOk r.sscanfD) {invite : Msg} {resp resp' : SipMessage} {tresp : List Char} {ty : EvType} {ds dc : Dialog}
    (hs : dialog_init_as_uas invite resp.view = some (.ok ds)) (hw : WrittenAs fresh resp tresp)
    (hread : osip_parse r tresp = some (some (ty, resp'))) (hc : dialog_init_as_uac resp'.view = some (.ok dc)) :
    (dc.call_id = ds.call_id ∧ dc.local_tag = ds.remote_tag ∧ dc.remote_tag = ds.local_tag ∧
      dc.local_uri = ds.remote_uri ∧ dc.remote_uri = ds.local_uri ∧ dc.route_set = ds.route_set.reverse) ∧
    (∀ f t x y, resp.view.from_ = some f → HasTag f x → resp.view.to = some t → HasTag t y → ∀ opsC opsS q q' tq ty',
      WrittenAs fresh q tq → osip_parse r tq = some (some (ty', q')) →
      (BuiltFrom (dc.after opsC) q.view → dialog_match_as_uas (some (ds.after opsS)) q'.view = some 0) ∧
      (BuiltFrom (ds.after opsS) q.view → dialog_match_as_uas (some (dc.after opsC)) q'.view = some 0)) := by
  obtain ⟨p, hp1, hp2⟩ := c117_text hf hr h1 h2 hw
  rw [hread] at hp1
  simp only [Option.some.injEq, Prod.mk.injEq] at hp1
  obtain ⟨-, rfl⟩ := hp1
  have hsame : SameDialogHeaders resp'.view resp.view := by rw [hp2]; exact ⟨rfl, rfl, rfl, rfl, rfl, rfl⟩
  obtain ⟨a1, a2, a3, a4, a5, a6, -⟩ := c114_mirror hs hc hsame
  refine ⟨⟨a1, a2, a3, a4, a5, a6⟩, ?_⟩
  intro f t x y hfr hx hto hy opsC opsS q q' tq ty' hq hqr
  obtain ⟨p, hp1, hp2⟩ := c117_text hf hr h1 h2 hq
  rw [hqr] at hp1
  simp only [Option.some.injEq, Prod.mk.injEq] at hp1
  obtain ⟨-, rfl⟩ := hp1
  rw [hp2]
  obtain ⟨b1, b2⟩ := c114_requests hs hc hsame hfr hx hto hy opsC opsS (m := q.view)
  exact ⟨fun h => (b1 h).1, fun h => (b2 h).1⟩

end Osip
