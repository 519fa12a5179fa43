import Verif.Match.PropsStack
import Verif.Fsm.Examples

/-!
# C20, C62: retransmitted requests, and NULL dereferences of the stack
-/

namespace Osip

/-! ## C62: matching never dereferences NULL … -/

theorem matching_response_isSome {e : Entry} (he : e.cseq.method.isSome = true) (r : Msg) :
    (matching_response e r).isSome = true := by
  obtain ⟨m, hm⟩ := Option.isSome_iff_exists.1 he
  unfold matching_response
  simp only [hm, strcmpEq, Option.bind_eq_bind, Option.bind_some, Option.pure_def]
  repeat' split
  all_goals rfl

theorem matching_2543_isSome {e : Entry} {r : Msg} {v : Via} (hm : r.sip_method.isSome = true)
    (hto : r.sip_method = some "ACK".toList → r.to.isSome = true) :
    (matching_request_2543 e r v).isSome = true := by
  obtain ⟨m, hm⟩ := Option.isSome_iff_exists.1 hm
  unfold matching_request_2543
  simp only [Option.bind_eq_bind, Option.pure_def]
  split
  · rfl
  simp only [Msg.isMethod, hm]
  split
  · simp only [Option.bind_some]
    split
    · next h =>
      obtain ⟨t, ht⟩ := Option.isSome_iff_exists.1 (hto (by rw [hm]; simpa using h))
      simp only [ht, Option.bind_some]
      repeat' split
      all_goals rfl
    · repeat' split
      all_goals rfl
  · simp only [Option.bind_some, Bool.false_eq_true, if_false]
    repeat' split
    all_goals rfl

theorem matching_request_isSome {e : Entry} (he : e.cseq.method.isSome = true) {r : Msg}
    (hm : r.sip_method.isSome = true)
    (hto : r.sip_method = some "ACK".toList → r.to.isSome = true) :
    (matching_request e r).isSome = true := by
  obtain ⟨m, hem⟩ := Option.isSome_iff_exists.1 he
  unfold matching_request
  repeat' split
  all_goals first
    | rfl
    | exact matching_2543_isSome hm hto
    | (unfold matching_request_3261
       simp only [hem]
       repeat' split
       all_goals rfl)

/-- **C62 (partial).** Looking up the transaction of a message from the network or the application
dereferences no NULL pointer, provided the CSeq header, if any, has a method (the parser guarantees
it) and an ACK has a To header (nothing guarantees it, `c62_violated`). -/
theorem c62_lookup_partial {s : Stack} (hs : StackReach s) {evt : MsgEv}
    (ha : evtAllowed evt.m = true)
    (hc : ∀ c, evt.m.cseq = some c → c.method.isSome = true)
    (hto : evt.m.sip_method = some "ACK".toList → evt.m.to.isSome = true) :
    (osip_find_transaction s evt).isSome = true := by
  have hinv := stackReach_sinv hs
  unfold osip_find_transaction
  cases hcs : evt.m.cseq with
  | none => rfl
  | some c =>
    obtain ⟨m, hm⟩ := Option.isSome_iff_exists.1 (hc c hcs)
    have hk : ∃ k, searchKind evt = some k := by
      unfold searchKind
      simp only [hcs, hm, Option.bind_some, Option.bind_eq_bind, Option.pure_def]
      repeat' split
      all_goals exact ⟨_, rfl⟩
    obtain ⟨k, hk⟩ := hk
    simp only [Option.isNone_some, Bool.false_eq_true, if_false, hk, Option.bind_eq_bind,
      Option.bind_some]
    unfold osip_transaction_find
    split
    · next hr =>
      rw [incomingReq_iff] at hr
      apply findM_isSome
      intro e he
      obtain ⟨req, hcr⟩ := hinv.created k e he
      rw [Option.isSome_map]
      have hsm : evt.m.sip_method.isSome = true := by
        simp only [evtAllowed, Msg.isRequest, hr.2, beq_self_eq_true, Bool.not_true, Bool.false_or,
          Bool.and_eq_true] at ha
        exact ha.1
      exact matching_request_isSome hcr.cseq_method hsm hto
    split
    · apply findM_isSome
      intro e he
      obtain ⟨req, hcr⟩ := hinv.created k e he
      rw [Option.isSome_map]
      exact matching_response_isSome hcr.cseq_method _
    · apply findM_isSome
      intro e he
      rfl

theorem transactionInit_isSome {k : Kind} {n1 n2 : TimeVal} {m : Msg}
    (h : m.req_uri.isSome = true) : (transactionInit k n1 n2 m).isSome = true := by
  obtain ⟨⟨a, b⟩, hd⟩ := Option.isSome_iff_exists.1 (requestDestination_isSome h)
  cases k
  · simp only [transactionInit, ict_init, hd]
    cases m.vias with
    | nil => rfl
    | cons v vs => simp only; cases v.protocol <;> rfl
  · simp only [transactionInit]; split <;> rfl
  · simp only [transactionInit, nict_init, hd]
    cases m.vias with
    | nil => rfl
    | cons v vs => simp only; cases v.protocol <;> rfl
  · simp only [transactionInit]; split <;> rfl

theorem init_isSome {s : Stack} {k : Kind} {m : Msg} {n1 n2 : TimeVal}
    (hid : s.transactionid < 2^31 - 1) (h : m.req_uri.isSome = true) :
    (osip_transaction_init s k m n1 n2).isSome = true := by
  obtain ⟨r, hr⟩ := Option.isSome_iff_exists.1 (transactionInit_isSome (k := k) (n1 := n1)
    (n2 := n2) h)
  unfold osip_transaction_init
  split
  · rfl
  split
  · rfl
  rw [if_neg (by omega)]
  simp only
  split
  · rfl
  split
  · rw [hr]
    cases r <;> rfl
  · rfl

theorem create_isSome {s : Stack} {evt : MsgEv} {n1 n2 : TimeVal}
    (hid : s.transactionid < 2^31 - 1) (ha : evtAllowed evt.m = true) :
    (osip_create_transaction s evt n1 n2).isSome = true := by
  unfold osip_create_transaction
  have hk : (createKind evt).isSome = true := by
    unfold createKind
    by_cases hq : evt.m.isRequest = true
    · simp only [hq, if_true]
      cases hc : evt.m.cseq.bind (·.method) with
      | none => rfl
      | some a =>
        cases hm : evt.m.sip_method with
        | none => rfl
        | some b =>
          simp only
          split
          · rfl
          · simp only [Msg.isMethod, hq, if_true, hm, Option.bind_eq_bind, Option.bind_some,
              Option.pure_def]
            repeat' split
            all_goals rfl
    · have hst : evt.m.status_code ≠ 0 := by simpa [Msg.isRequest] using hq
      have h1 : ¬ evt.type.isIncomingReq = true := by simp [incomingReq_iff, hst]
      have h2 : ¬ evt.type.isOutgoingReq = true := by simp [outgoingReq_iff, hst]
      simp [hq, Msg.isMethod, h1, h2]
  obtain ⟨k, hk⟩ := Option.isSome_iff_exists.1 hk
  simp only [hk, Option.bind_eq_bind, Option.bind_some]
  cases k with
  | none => rfl
  | some k =>
    refine init_isSome hid ?_
    obtain ⟨h1, _⟩ := createKind_some hk
    simp only [evtAllowed, Msg.isRequest, h1, beq_self_eq_true, Bool.not_true, Bool.false_or,
      Bool.and_eq_true] at ha
    exact ha.2

theorem CreatedBy.step_isSome {req : Msg} {k : Kind} {e : Entry} (h : CreatedBy req k e) (o : Op) :
    (e.w.step o).isSome = true := by
  obtain ⟨n1, n2, r, t, ops, _, h1, h2, _⟩ := h.reach
  have := c61_no_null_dereference h1 (ops ++ [o])
  rw [World.run_append, h2] at this
  simp only [Option.bind_some, World.run, Option.bind_eq_bind] at this
  cases hs : e.w.step o with
  | none => simp [hs] at this
  | some w => rfl

theorem actList_isSome {id : Int} {o : Op} {l : List Entry}
    (h : ∀ e ∈ l, (e.w.step o).isSome = true) : (actList id o l).isSome = true := by
  induction l with
  | nil => rfl
  | cons e es ih =>
    obtain ⟨l', hl⟩ := Option.isSome_iff_exists.1 (ih (fun x hx => h x (by simp [hx])))
    obtain ⟨w', hw⟩ := Option.isSome_iff_exists.1 (h e (by simp))
    simp only [actList, hl, hw, Option.bind_eq_bind, Option.bind_some]
    split <;> rfl

/-- The message of an operation has what C62 needs. -/
def SOp.MsgOk : SOp → Prop
  | .receive m _ _ | .deliver ⟨_, m, _⟩ | .create ⟨_, m, _⟩ _ _ =>
    (∀ c, m.cseq = some c → c.method.isSome = true) ∧
      (m.sip_method = some "ACK".toList → m.to.isSome = true)
  | _ => True

/-- **C62 (partial), whole stack.** Nothing done to a stack, with messages as in
`c62_lookup_partial` and fewer than 2^31 - 2 transactions created so far, dereferences NULL. -/
theorem c62_step_partial {s : Stack} (hs : StackReach s) (hid : s.transactionid < 2^31 - 1)
    {o : SOp} (ho : o.MsgOk) : (s.step o).isSome = true := by
  have hinv := stackReach_sinv hs
  have hfind : ∀ evt : MsgEv, evtAllowed evt.m = true →
      (∀ c, evt.m.cseq = some c → c.method.isSome = true) →
      (evt.m.sip_method = some "ACK".toList → evt.m.to.isSome = true) →
      ∃ r, osip_find_transaction_and_add_event s evt = some r := by
    intro evt h1 h2 h3
    obtain ⟨r, hr⟩ := Option.isSome_iff_exists.1 (c62_lookup_partial hs h1 h2 h3)
    unfold osip_find_transaction_and_add_event
    simp only [hr, Option.bind_eq_bind, Option.bind_some]
    cases r <;> exact ⟨_, rfl⟩
  cases o with
  | receive m n1 n2 =>
    simp only [Stack.step, Stack.receive]
    by_cases ha : evtAllowed m = true
    · obtain ⟨⟨s1, i⟩, hr⟩ := hfind { incoming := true, m } ha ho.1 ho.2
      obtain ⟨⟨s2, e⟩, hc⟩ := Option.isSome_iff_exists.1
        (create_isSome (evt := { incoming := true, m }) (n1 := n1) (n2 := n2) hid ha)
      simp only [ha, not_true, if_false, hr, hc, Option.bind_eq_bind, Option.bind_some]
      split
      · rfl
      · cases e <;> rfl
    · simp [ha]
  | deliver evt =>
    simp only [Stack.step]
    split
    · next ha =>
      obtain ⟨r, hr⟩ := hfind evt ha ho.1 ho.2
      simp [hr]
    · rfl
  | create evt n1 n2 =>
    simp only [Stack.step]
    split
    · next ha =>
      rw [Option.isSome_map]
      exact create_isSome hid ha
    · rfl
  | remove k id => rfl
  | act id op =>
    have hall : ∀ k, ∃ l, actList id op (s.list k) = some l := by
      intro k
      refine Option.isSome_iff_exists.1 (actList_isSome ?_)
      intro e he
      obtain ⟨req, hc⟩ := hinv.created k e he
      exact hc.step_isSome op
    obtain ⟨a, ha⟩ := hall .ICT
    obtain ⟨b, hb⟩ := hall .IST
    obtain ⟨c, hc⟩ := hall .NICT
    obtain ⟨d, hd⟩ := hall .NIST
    simp only [Stack.list] at ha hb hc hd
    simp [Stack.step, ha, hb, hc, hd]

/-! ## C20 -/

/-- Looking up a message in a stack where some transaction of the searched list matches finds that
transaction or an older matching one. -/
theorem find_of_match {s : Stack} (hs : StackReach s) {m : Msg} (hq : m.status_code = 0)
    (ha : evtAllowed m = true)
    (hack : m.sip_method ≠ some "ACK".toList) {k : Kind}
    (hk : searchKind { incoming := true, m } = some k) {e : Entry} (he : e ∈ s.list k)
    (hmatch : matching_request e m = some OSIP_SUCCESS) :
    ∃ x ∈ s.list k, osip_find_transaction s { incoming := true, m } = some (some x) ∧
      x.transactionid ≤ e.transactionid ∧ matching_request x m = some OSIP_SUCCESS := by
  have hinv := stackReach_sinv hs
  have hcm : ∃ c, m.cseq.bind (·.method) = some c := by
    simp only [searchKind, Option.bind_eq_bind, Option.bind_eq_some_iff] at hk
    obtain ⟨a, ⟨b, h1, h2⟩, _⟩ := hk
    exact ⟨a, by simp [h1, h2]⟩
  obtain ⟨meth, hcm⟩ := hcm
  have hsome : (osip_find_transaction s { incoming := true, m }).isSome = true := by
    refine c62_lookup_partial hs ha ?_ (fun h => absurd h hack)
    intro c hc
    rw [Option.isSome_iff_exists]
    have hc' : m.cseq = some c := hc
    rw [hc'] at hcm
    exact ⟨meth, hcm⟩
  obtain ⟨r, hr⟩ := Option.isSome_iff_exists.1 hsome
  have hreq : (MsgEv.type { incoming := true, m }).isIncomingReq = true := by
    rw [incomingReq_iff]; exact ⟨rfl, hq⟩
  have hcs : m.cseq.isNone = false := by
    cases h : m.cseq with
    | none => simp [h] at hcm
    | some c => rfl
  have hr0 := hr
  simp only [osip_find_transaction, hcs, Bool.false_eq_true, if_false, hk, Option.bind_eq_bind,
    Option.bind_some, osip_transaction_find, hreq, if_true] at hr
  cases r with
  | none =>
    have := findM_none hr e he
    rw [hmatch] at this
    simp [OSIP_SUCCESS] at this
  | some x =>
    obtain ⟨a, c, h1, h2, h3⟩ := findM_some hr
    refine ⟨x, by rw [h1]; simp, hr0, ?_, ?_⟩
    · have hsorted := hinv.sorted k
      rw [h1] at hsorted he
      simp only [List.map_append, List.map_cons, List.pairwise_append, List.pairwise_cons,
        List.mem_map, List.mem_cons, forall_exists_index, and_imp, forall_apply_eq_imp_iff₂,
        forall_eq_or_imp] at hsorted
      simp only [List.mem_append, List.mem_cons] at he
      rcases he with he | rfl | he
      · have := h3 e he
        rw [hmatch] at this
        simp [OSIP_SUCCESS] at this
      · omega
      · have := hsorted.2.1.1 e he; omega
    · simp only [Option.map_eq_some_iff, beq_iff_eq] at h2
      obtain ⟨i, hi, rfl⟩ := h2
      exact hi

/-- A transaction whose id was not there before a message was received was created for that message,
and is in the list searched for it. -/
theorem receive_created {s s1 : Stack} (hs : StackReach s) {m : Msg} {n1 n2 : TimeVal}
    (h1 : s.step (.receive m n1 n2) = some s1) {k : Kind} {e : Entry} (he : e ∈ s1.list k)
    (hnew : e.transactionid ∉ s.ids) :
    CreatedBy m k e ∧ evtAllowed m = true ∧ m.status_code = 0 ∧
      m.sip_method ≠ some "ACK".toList ∧ searchKind { incoming := true, m } = some k := by
  have hold : ∀ k e0, e0 ∈ s.list k → e0.transactionid ∈ s.ids := by
    intro k e0 h0
    unfold Stack.ids
    rw [List.mem_map]
    refine ⟨e0, ?_, rfl⟩
    cases k
    all_goals
      simp only [List.mem_append]
      simp only [Stack.list] at h0
      simp [h0]
  have hnotadv : ∀ {x : Stack}, Advanced s x → e ∈ x.list k → False := by
    intro x hx hex
    obtain ⟨e0, h0, h2⟩ := mem_id_of_ids (hx.ids k) hex
    exact hnew (h2 ▸ hold k e0 h0)
  rcases receive_cases h1 with rfl | ⟨ha, ⟨i, h2⟩ | ⟨hn, h2 | ⟨s2, e2, h2, rfl⟩⟩⟩
  · exact absurd (hold k e he) hnew
  · exact (hnotadv (find_add_advanced (evt := { incoming := true, m }) ha h2) he).elim
  · exfalso
    rcases create_cases h2 with ⟨rfl, _⟩ | ⟨k', hk', h3⟩
    · exact hnew (hold k e he)
    · rcases transaction_init_cases h3 with ⟨rfl, _⟩ | ⟨rfl, _⟩ | ⟨x, hx, _⟩
      · exact hnew (hold k e he)
      · obtain ⟨e0, h0, h4, _⟩ := ((later_counter s).trans (later_remove _ k' s.transactionid)).old
          k e he (by
            have hl := later_remove { s with transactionid := s.transactionid + 1 } k'
              s.transactionid
            have hr : removeId s.transactionid (s.list k') = none := removeId_none.2 (by
              intro y hy
              have := (stackReach_sinv hs).below k' y hy
              omega)
            have hmem : e ∈ s.list k := by
              unfold osip_remove_transaction at he
              have : Stack.list { s with transactionid := s.transactionid + 1 } k' = s.list k' := by
                cases k' <;> rfl
              rw [this, hr] at he
              cases k <;> exact he
            exact (stackReach_sinv hs).below k e hmem)
        exact hnew (h4 ▸ hold k e0 h0)
      · cases hx
  · obtain ⟨k2, hc, h3, h4, h5, hk⟩ := c21_created hs h2
    have hk2 : e2.kind = k2 := hc.kind
    have hadv := advanced_addEvent (evt := { incoming := true, m }) s2 e2.kind e2.transactionid ha
    obtain ⟨e0, h0, h6, h7⟩ := hadv.created k e he
    have hkk : k = k2 ∧ e0 = e2 := by
      by_cases hkk : k = k2
      · subst hkk
        rw [h3] at h0
        rcases List.mem_append.1 h0 with h0 | h0
        · exact absurd (h6 ▸ hold k e0 h0) hnew
        · exact ⟨rfl, by simpa using h0⟩
      · rw [h4 k hkk] at h0
        exact absurd (h6 ▸ hold k e0 h0) hnew
    obtain ⟨rfl, rfl⟩ := hkk
    rcases create_cases h2 with ⟨_, h⟩ | ⟨k', hk', _⟩
    · cases h
    obtain ⟨q1, mm, q2, q3, q4, q5⟩ := createKind_some hk'
    simp only at q1 q2 q3 q5
    refine ⟨h7 m hc, ha, q1, by rw [q2]; simpa using q4, ?_⟩
    have hkk : k = k' := by
      rw [q5]
      simp only [if_true]
      by_cases hi : mm = "INVITE".toList
      · rw [if_pos hi]; exact hk.1.2 ⟨rfl, by rw [q2, hi]⟩
      · rw [if_neg hi]; exact hk.2.1.2 ⟨rfl, by rw [q2]; simpa using hi⟩
    rw [hkk, q5]
    simp only [searchKind, q3, Option.bind_some, Option.bind_eq_bind, if_true, Msg.isRequest, q1,
      beq_self_eq_true, Option.pure_def, Option.some.injEq, Bool.or_eq_true, decide_eq_true_eq]
    by_cases hi : mm = "INVITE".toList
    · simp [hi]
    · rw [if_neg hi, if_neg (fun h => h.elim hi q4)]

/-- What C20 claims of a stack: the message is found to belong to the transaction with the given id
or an older one, and receiving it creates no transaction. -/
def Recognised (s : Stack) (m : Msg) (k : Kind) (id : Int) : Prop :=
  (∃ x ∈ s.list k, osip_find_transaction s { incoming := true, m } = some (some x) ∧
    x.transactionid ≤ id) ∧
  ∀ n1 n2 s', s.step (.receive m n1 n2) = some s' → s'.ids = s.ids

theorem recognised_of_match {s : Stack} (hs : StackReach s) {m : Msg} (hq : m.status_code = 0)
    (ha : evtAllowed m = true) (hack : m.sip_method ≠ some "ACK".toList) {k : Kind}
    (hk : searchKind { incoming := true, m } = some k) {e : Entry} (he : e ∈ s.list k)
    (hmatch : matching_request e m = some OSIP_SUCCESS) : Recognised s m k e.transactionid := by
  obtain ⟨x, hx, hf, hle, _⟩ := find_of_match hs hq ha hack hk he hmatch
  refine ⟨⟨x, hx, hf, hle⟩, ?_⟩
  intro n1 n2 s' hst
  have hids : ∀ {a b : Stack}, Advanced a b → b.ids = a.ids := by
    intro a b hab
    have h1 := hab.ids .ICT
    have h2 := hab.ids .IST
    have h3 := hab.ids .NICT
    have h4 := hab.ids .NIST
    simp only [Stack.list] at h1 h2 h3 h4
    simp only [Stack.ids, List.map_append, h1, h2, h3, h4]
  rcases receive_cases hst with rfl | ⟨ha, ⟨i, h2⟩ | ⟨hn, _⟩⟩
  · rfl
  · exact hids (find_add_advanced (evt := { incoming := true, m }) ha h2)
  · rw [hf] at hn; simp at hn

/-- A request with a magic-cookie branch matches the transaction created for it. -/
theorem match_self_3261 {e : Entry} {m : Msg} {k : Kind} (hc : CreatedBy m k e)
    (hk : k = .IST ∨ k = .NIST) {b : Str} (hb : IsBranch e.topvia b) (hm : Magic b) :
    matching_request e m = some OSIP_SUCCESS := by
  obtain ⟨meth, hmeth⟩ := Option.isSome_iff_exists.1 hc.cseq_method
  refine (c19_request_matching (by rw [hc.kind]; exact hk) hc.topvia
    (by rw [hc.cseq]; exact hmeth) hmeth hb hb hm hm).2 ⟨rfl, ⟨?_, rfl⟩, .inl rfl⟩
  obtain ⟨h, hh⟩ := Option.isSome_iff_exists.1 hc.via_host
  exact ⟨h, hh, hh⟩

theorem server_of_search {m : Msg} (hq : m.status_code = 0) {k : Kind}
    (hk : searchKind { incoming := true, m } = some k) : k = .IST ∨ k = .NIST := by
  simp only [searchKind, Option.bind_eq_bind, Option.bind_eq_some_iff, if_true, Msg.isRequest, hq,
    beq_self_eq_true, Option.pure_def, Option.some.injEq] at hk
  obtain ⟨a, _, rfl⟩ := hk
  split <;> simp

/-- **C20 (partial).** A request whose top Via has a magic-cookie branch was received and created a
transaction (its id is new). As long as that transaction is alive, whatever else happened, the same
request is found to belong to it or to an older transaction, and receiving it again creates no
transaction. Missing: requests without a magic-cookie branch, see `c20_violated` and
`c20_rfc2543_partial`. -/
theorem c20_retransmission_partial {s s1 s2 : Stack} (hs : StackReach s) {m : Msg}
    {n1 n2 : TimeVal} (h1 : s.step (.receive m n1 n2) = some s1) {k : Kind} {e e' : Entry}
    (he : e ∈ s1.list k) (hnew : e.transactionid ∉ s.ids) {ops : List SOp}
    (h2 : s1.run ops = some s2) (he' : e' ∈ s2.list k) (hid : e'.transactionid = e.transactionid)
    {v : Via} {b : Str} (hv : m.vias.head? = some v) (hb : IsBranch v b) (hm : Magic b) :
    Recognised s2 m k e.transactionid := by
  obtain ⟨hc, ha, hq, hack, hk⟩ := receive_created hs h1 he hnew
  have hs1 := hs.step h1
  have hs2 := hs1.run h2
  have hinv := stackReach_sinv hs1
  obtain ⟨e0, q1, q2, q3⟩ := (later_run h2).old k e' he' (by rw [hid]; exact hinv.below k e he)
  have : e0 = e := eq_of_id (hinv.sorted k) q1 he (by omega)
  subst this
  have hc' := q3 m hc
  have hve : e'.topvia = v := by
    have := hc'.topvia
    rw [hv] at this
    simpa using this.symm
  rw [← hid]
  exact recognised_of_match hs2 hq ha hack hk he'
    (match_self_3261 hc' (server_of_search hq hk) (hve ▸ hb) hm)

/-- A From or To header has a tag that can be compared, or none. -/
def TagOk (f : From) : Prop := ∀ p, paramByName f.gen_params "tag" = some p → p.gvalue.isSome = true

theorem from_tag_self {f : From} (h : TagOk f) : from_tag_match (some f) (some f) = OSIP_SUCCESS := by
  unfold from_tag_match
  cases hp : paramByName f.gen_params "tag" with
  | none => simp [hp]
  | some p =>
    obtain ⟨v, hv⟩ := Option.isSome_iff_exists.1 (h p hp)
    simp [hp, hv]

/-- A request without a magic-cookie branch matches the transaction created for it once the
transaction has executed it. -/
theorem match_self_2543 {e : Entry} {m : Msg} {k : Kind} (hc : CreatedBy m k e)
    (hk : k = .IST ∨ k = .NIST) (hq : m.sip_method.isSome = true)
    (hack : m.sip_method ≠ some "ACK".toList)
    (hb : ∀ p, paramByName e.topvia.via_params "branch" = some p → p.gvalue.isSome = true)
    (hf : TagOk e.from_) (ht : TagOk e.to) {r : Ref} (hr : e.w.tr.orig_request = some r)
    (hrm : r.m.to = m.to)
    (hnm : ∀ b, IsBranch e.topvia b → ¬ Magic b) :
    matching_request e m = some OSIP_SUCCESS := by
  obtain ⟨meth, hmeth⟩ := Option.isSome_iff_exists.1 hc.cseq_method
  obtain ⟨num, hnum⟩ := Option.isSome_iff_exists.1 hc.cseq_number
  obtain ⟨cid, hcid⟩ := Option.isSome_iff_exists.1 hc.callid_number
  obtain ⟨host, hhost⟩ := Option.isSome_iff_exists.1 hc.via_host
  obtain ⟨ver, hver⟩ := Option.isSome_iff_exists.1 hc.via_version
  obtain ⟨pro, hpro⟩ := Option.isSome_iff_exists.1 hc.via_protocol
  obtain ⟨sm, hsm⟩ := Option.isSome_iff_exists.1 hq
  have hvs : ∃ vs, m.vias = e.topvia :: vs := by
    cases h : m.vias with
    | nil => have := hc.topvia; simp [h] at this
    | cons v vs => have := hc.topvia; simp [h] at this; exact ⟨vs, by rw [this]⟩
  obtain ⟨vs, hvs⟩ := hvs
  have h25 : matching_request_2543 e m e.topvia = some OSIP_SUCCESS := by
    have hcall : call_id_match (some e.callid) m.call_id = OSIP_SUCCESS := by
      rw [hc.callid]
      simp only [call_id_match, hcid, ne_eq, not_true, if_false]
      cases e.callid.host <;> simp
    have hcseq : cseq_match (some e.cseq) m.cseq = OSIP_SUCCESS := by
      rw [hc.cseq]
      simp only [cseq_match, hmeth, hnum, if_true]
      by_cases h : meth = "INVITE".toList ∨ meth = "ACK".toList
      · rw [if_pos h, if_pos h]
      · rw [if_neg h]
    have hvia : via_match (some e.topvia) (some e.topvia) = OSIP_SUCCESS := by
      simp [via_match, via_to_str, hhost, hver, hpro]
    have hfrom : from_tag_match (some e.from_) m.from_ = OSIP_SUCCESS := by
      rw [hc.from_]; exact from_tag_self hf
    have hto : from_tag_match m.to m.to = OSIP_SUCCESS := by
      rw [hc.to]; exact from_tag_self ht
    have hmeth : m.isMethod "ACK" = some false := by
      unfold Msg.isMethod
      split
      · simp only [hsm]
        congr 1
        rw [beq_eq_false_iff_ne]
        intro h
        exact hack (by rw [hsm, h])
      · rfl
    simp [matching_request_2543, hcall, hmeth, hr, hrm, hto, hfrom, hcseq, hvia, hc.to,
      OSIP_SUCCESS]
    exact fun h => absurd (from_tag_self ht) h
  unfold matching_request
  rw [if_neg (by rw [hc.kind]; rcases hk with h | h <;> simp [h])]
  simp only [hc.cseq, Option.bind_some, hmeth, hvs]
  cases hp : paramByName e.topvia.via_params "branch" with
  | none => simpa using h25
  | some p =>
    obtain ⟨b, hbv⟩ := Option.isSome_iff_exists.1 (hb p hp)
    have hmag : hasMagicCookie b = false := by
      rw [← Bool.not_eq_true, magic_iff]
      exact hnm b ((isBranch_iff _ _).2 ⟨p, hp, hbv⟩)
    simp only [hbv, ne_eq, not_true, if_false, hmag, Bool.and_self, Bool.false_eq_true]
    exact h25

/-- **C20 (partial), RFC 2543 requests.** A request without magic-cookie branch that created a
transaction is recognised once the transaction has executed it (`orig_request` is set), if a branch
or tag parameter, where present, has a value. -/
theorem c20_rfc2543_partial {s s1 s2 : Stack} (hs : StackReach s) {m : Msg}
    {n1 n2 : TimeVal} (h1 : s.step (.receive m n1 n2) = some s1) {k : Kind} {e e' : Entry}
    (he : e ∈ s1.list k) (hnew : e.transactionid ∉ s.ids) {ops : List SOp}
    (h2 : s1.run ops = some s2) (he' : e' ∈ s2.list k) (hid : e'.transactionid = e.transactionid)
    {v : Via} {f t : From} (hv : m.vias.head? = some v) (hfr : m.from_ = some f)
    (hto : m.to = some t) (hb : ∀ p, paramByName v.via_params "branch" = some p → p.gvalue.isSome = true)
    (hnm : ∀ b, IsBranch v b → ¬ Magic b) (hf : TagOk f) (ht : TagOk t)
    {r : Ref} (hr : e'.w.tr.orig_request = some r) (hrm : r.m.to = m.to) :
    Recognised s2 m k e.transactionid := by
  obtain ⟨hc, ha, hq, hack, hk⟩ := receive_created hs h1 he hnew
  have hs1 := hs.step h1
  have hs2 := hs1.run h2
  have hinv := stackReach_sinv hs1
  obtain ⟨e0, q1, q2, q3⟩ := (later_run h2).old k e' he' (by rw [hid]; exact hinv.below k e he)
  have : e0 = e := eq_of_id (hinv.sorted k) q1 he (by omega)
  subst this
  have hc' := q3 m hc
  have hve : e'.topvia = v := by
    have := hc'.topvia
    rw [hv] at this
    simpa using this.symm
  have hfe : e'.from_ = f := by
    have := hc'.from_
    rw [hfr] at this
    simpa using this.symm
  have hte : e'.to = t := by
    have := hc'.to
    rw [hto] at this
    simpa using this.symm
  have hsm : m.sip_method.isSome = true := by
    simp only [evtAllowed, Msg.isRequest, hq, beq_self_eq_true, Bool.not_true, Bool.false_or,
      Bool.and_eq_true] at ha
    exact ha.1
  rw [← hid]
  refine recognised_of_match hs2 hq ha hack hk he'
    (match_self_2543 hc' (server_of_search hq hk) hsm hack ?_ ?_ ?_ hr hrm ?_)
  · rw [hve]; exact hb
  · rw [hfe]; exact hf
  · rw [hte]; exact ht
  · rw [hve]; exact hnm

end Osip
