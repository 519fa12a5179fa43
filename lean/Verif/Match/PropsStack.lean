import Verif.Match.Props

/-!
# C17, C20, C21, C22, C62: the stack
-/

namespace Osip

/-! ## C17: ids are unique, removal is exact -/

/-- **C17.** Two transactions alive in one stack never have the same id. -/
theorem c17_unique {s : Stack} (hs : StackReach s) : s.ids.Nodup := by
  have h := stackReach_sinv hs
  have hn : ∀ k, ((s.list k).map (·.transactionid)).Nodup := fun k =>
    (h.sorted k).imp (fun hab => by omega)
  have ha := h.apart
  unfold Stack.ids
  simp only [List.map_append, List.nodup_append, List.mem_append, List.mem_map]
  refine ⟨⟨⟨hn .ICT, hn .IST, ?_⟩, hn .NICT, ?_⟩, hn .NIST, ?_⟩
  · rintro _ ⟨x, hx, rfl⟩ _ ⟨y, hy, rfl⟩
    exact ha .ICT .IST (by decide) x hx y hy
  · rintro _ (⟨x, hx, rfl⟩ | ⟨x, hx, rfl⟩) _ ⟨y, hy, rfl⟩
    · exact ha .ICT .NICT (by decide) x hx y hy
    · exact ha .IST .NICT (by decide) x hx y hy
  · rintro _ ((⟨x, hx, rfl⟩ | ⟨x, hx, rfl⟩) | ⟨x, hx, rfl⟩) _ ⟨y, hy, rfl⟩
    · exact ha .ICT .NIST (by decide) x hx y hy
    · exact ha .IST .NIST (by decide) x hx y hy
    · exact ha .NICT .NIST (by decide) x hx y hy

/-- **C17, removal.** Removing a transaction that is alive succeeds, takes exactly that one out of
its list, keeping the order of the others, and leaves the other lists and the counter alone. -/
theorem c17_remove {s : Stack} (hs : StackReach s) {k : Kind} {e : Entry} (he : e ∈ s.list k) :
    ∃ before after s', s.list k = before ++ e :: after ∧
      osip_remove_transaction s k e.transactionid = (s', OSIP_SUCCESS) ∧
      s'.list k = before ++ after ∧ (∀ k', k' ≠ k → s'.list k' = s.list k') ∧
      s'.transactionid = s.transactionid ∧ e.transactionid ∉ s'.ids := by
  have h := stackReach_sinv hs
  unfold osip_remove_transaction
  split
  · next l hl =>
    obtain ⟨a, x, b, h1, rfl, h3, h4⟩ := removeId_spec hl
    have hx : x = e := eq_of_id (h.sorted k) (by rw [h1]; simp) he h3
    subst hx
    have hst : StackReach (osip_remove_transaction s k x.transactionid).1 :=
      hs.step (o := .remove k x.transactionid) rfl
    refine ⟨a, b, _, h1, rfl, by simp, ?_, by simp, ?_⟩
    · intro k' hk'
      rw [list_setList, if_neg hk']
    · have hsorted := h.sorted k
      rw [h1] at hsorted
      simp only [List.map_append, List.map_cons, List.pairwise_append, List.pairwise_cons,
        List.mem_map, List.mem_cons, forall_exists_index, and_imp, forall_apply_eq_imp_iff₂,
        forall_eq_or_imp] at hsorted
      have hin : ∀ k' y, y ∈ (s.setList k (a ++ b)).list k' → y.transactionid ≠ x.transactionid := by
        intro k' y hy
        rw [list_setList] at hy
        split at hy
        · rcases List.mem_append.1 hy with hy | hy
          · have := (hsorted.2.2 y hy).1; omega
          · have := hsorted.2.1.1 y hy; omega
        · next hk' => exact h.apart k' k hk' y hy x he
      unfold Stack.ids
      simp only [List.mem_map, List.mem_append, not_exists, not_and]
      rintro y (((hy | hy) | hy) | hy)
      · exact hin .ICT y hy
      · exact hin .IST y hy
      · exact hin .NICT y hy
      · exact hin .NIST y hy
  · next hn => exact absurd rfl (removeId_none.1 hn e he)

/-- **C17, removal of an absent transaction.** It reports an error and changes nothing. -/
theorem c17_remove_absent {s : Stack} {k : Kind} {id : Int}
    (h : ∀ e ∈ s.list k, e.transactionid ≠ id) :
    osip_remove_transaction s k id = (s, OSIP_UNDEFINED_ERROR) := by
  unfold osip_remove_transaction
  rw [removeId_none.2 h]

/-- Ids are given out once: whatever happens after a transaction was removed, its id does not come
back. -/
theorem c17_no_reuse {s s' : Stack} (hs : StackReach s) {ops : List SOp}
    (hr : s.run ops = some s') {id : Int} (hid : id < s.transactionid) (hn : id ∉ s.ids) :
    id ∉ s'.ids := by
  have hl := later_run hr
  have key : ∀ k e, e ∈ s'.list k → e.transactionid ≠ id := by
    intro k e he hee
    obtain ⟨e0, h0, h1, _⟩ := hl.old k e he (by omega)
    apply hn
    unfold Stack.ids
    rw [List.mem_map]
    refine ⟨e0, ?_, by omega⟩
    cases k
    all_goals
      simp only [List.mem_append]
      simp only [Stack.list] at h0
      simp [h0]
  unfold Stack.ids
  simp only [List.mem_map, List.mem_append, not_exists, not_and]
  rintro y (((hy | hy) | hy) | hy)
  · exact key .ICT y hy
  · exact key .IST y hy
  · exact key .NICT y hy
  · exact key .NIST y hy

/-! ## C21: what creates a transaction -/

theorem incomingReq_iff (evt : MsgEv) :
    evt.type.isIncomingReq = true ↔ evt.incoming = true ∧ evt.m.status_code = 0 := by
  unfold MsgEv.type
  cases hi : evt.incoming
  · simp only [Bool.false_eq_true, if_false, evt_type_outgoing, false_and, iff_false]
    repeat' split
    all_goals simp [EvType.isIncomingReq]
  · simp only [if_true, true_and, evt_type_incoming, Msg.isRequest, beq_iff_eq]
    by_cases h : evt.m.status_code = 0
    · simp only [h, if_true, iff_true]
      repeat' split
      all_goals rfl
    · simp only [h, if_false, iff_false]
      repeat' split
      all_goals simp [EvType.isIncomingReq]

theorem outgoingReq_iff (evt : MsgEv) :
    evt.type.isOutgoingReq = true ↔ evt.incoming = false ∧ evt.m.status_code = 0 := by
  unfold MsgEv.type
  cases hi : evt.incoming
  · simp only [Bool.false_eq_true, if_false, evt_type_outgoing, true_and, Msg.isRequest, beq_iff_eq]
    by_cases h : evt.m.status_code = 0
    · simp only [h, if_true, iff_true]
      repeat' split
      all_goals rfl
    · simp only [h, if_false, iff_false]
      repeat' split
      all_goals simp [EvType.isOutgoingReq]
  · simp only [if_true, evt_type_incoming, Bool.true_eq_false, false_and, iff_false]
    repeat' split
    all_goals simp [EvType.isOutgoingReq]

/-- The kind of transaction an event asks for, in words of the message only. -/
theorem createKind_some {evt : MsgEv} {k : Kind} (h : createKind evt = some (some k)) :
    evt.m.status_code = 0 ∧ ∃ m, evt.m.sip_method = some m ∧
      evt.m.cseq.bind (·.method) = some m ∧ m ≠ "ACK".toList ∧
      k = (if evt.incoming then (if m = "INVITE".toList then .IST else .NIST)
           else (if m = "INVITE".toList then .ICT else .NICT)) := by
  unfold createKind at h
  by_cases hq : evt.m.isRequest = true
  · have hst : evt.m.status_code = 0 := by simpa [Msg.isRequest] using hq
    refine ⟨hst, ?_⟩
    simp only [hq, if_true] at h
    cases hc : evt.m.cseq.bind (·.method) with
    | none => simp [hc] at h
    | some a =>
      cases hm : evt.m.sip_method with
      | none => simp [hc, hm] at h
      | some b =>
        simp only [hc, hm] at h
        split at h
        · simp at h
        · next hab =>
          simp only [ne_eq, Decidable.not_not] at hab
          subst hab
          refine ⟨a, rfl, rfl, ?_⟩
          simp only [Msg.isMethod, hq, if_true, hm, Option.bind_eq_bind, Option.bind_some,
            Option.pure_def, beq_iff_eq] at h
          split at h
          · simp at h
          · next hack =>
            refine ⟨hack, ?_⟩
            cases hi : evt.incoming
            · have h1 : ¬ evt.type.isIncomingReq = true := by simp [incomingReq_iff, hi]
              have h2 : evt.type.isOutgoingReq = true := by simp [outgoingReq_iff, hi, hst]
              simp only [h1, h2, if_true, if_false, Option.some.injEq, Bool.false_eq_true] at h
              simp [← h]
            · have h1 : evt.type.isIncomingReq = true := by simp [incomingReq_iff, hi, hst]
              simp only [h1, if_true, Option.some.injEq] at h
              simp [← h]
  · have hst : evt.m.status_code ≠ 0 := by simpa [Msg.isRequest] using hq
    have h1 : ¬ evt.type.isIncomingReq = true := by simp [incomingReq_iff, hst]
    have h2 : ¬ evt.type.isOutgoingReq = true := by simp [outgoingReq_iff, hst]
    simp [hq, Msg.isMethod, h1, h2] at h

/-- **C21.** No transaction is created, and nothing changes, for an ACK, for a response and for a
request whose CSeq method differs from that of the request line. -/
theorem c21_no_transaction {s s' : Stack} {evt : MsgEv} {n1 n2 : TimeVal} {r : Option Entry}
    (h : osip_create_transaction s evt n1 n2 = some (s', r))
    (hm : evt.m.sip_method = some "ACK".toList ∨ evt.m.status_code ≠ 0 ∨
      evt.m.cseq.bind (·.method) ≠ evt.m.sip_method) : r = none ∧ s' = s := by
  rcases create_cases h with ⟨h1, h2⟩ | ⟨k, hk, _⟩
  · exact ⟨h2, h1⟩
  · obtain ⟨h1, m, h2, h3, h4, _⟩ := createKind_some hk
    rcases hm with hm | hm | hm
    · rw [h2] at hm; exact absurd (by simpa using hm) h4
    · exact absurd h1 hm
    · exact absurd (h3.trans h2.symm) hm

/-- **C21, what is created.** A created transaction is at the end of the list for the direction and
method of its request, with a new id; nothing else changes. -/
theorem c21_created {s s' : Stack} (hs : StackReach s) {evt : MsgEv} {n1 n2 : TimeVal} {e : Entry}
    (h : osip_create_transaction s evt n1 n2 = some (s', some e)) :
    ∃ k, CreatedBy evt.m k e ∧ s'.list k = s.list k ++ [e] ∧
      (∀ k', k' ≠ k → s'.list k' = s.list k') ∧ e.transactionid ∉ s.ids ∧
      (k = .IST ↔ evt.incoming = true ∧ evt.m.sip_method = some "INVITE".toList) ∧
      (k = .NIST ↔ evt.incoming = true ∧ evt.m.sip_method ≠ some "INVITE".toList) ∧
      (k = .ICT ↔ evt.incoming = false ∧ evt.m.sip_method = some "INVITE".toList) ∧
      (k = .NICT ↔ evt.incoming = false ∧ evt.m.sip_method ≠ some "INVITE".toList) := by
  have hinv := stackReach_sinv hs
  rcases create_cases h with ⟨_, h2⟩ | ⟨k, hk, h2⟩
  · cases h2
  · rcases transaction_init_cases h2 with ⟨_, h3⟩ | ⟨_, h3⟩ | ⟨e', h3, h4, h5, _, rfl⟩
    · cases h3
    · cases h3
    · simp only [Option.some.injEq] at h3
      subst h3
      obtain ⟨h1, m, h2, h3, _, h6⟩ := createKind_some hk
      refine ⟨k, h5, by simp, ?_, ?_, ?_⟩
      · intro k' hk'
        rw [list_setList, if_neg hk']
        cases k' <;> rfl
      · unfold Stack.ids
        simp only [List.mem_map, List.mem_append, not_exists, not_and]
        rintro y (((hy | hy) | hy) | hy)
        · have := hinv.below .ICT y hy; omega
        · have := hinv.below .IST y hy; omega
        · have := hinv.below .NICT y hy; omega
        · have := hinv.below .NIST y hy; omega
      · rw [h2]
        cases hi : evt.incoming <;> by_cases hmi : m = "INVITE".toList <;>
          simp only [hi, hmi, if_true, if_false, Bool.false_eq_true] at h6 <;> subst h6 <;>
          first | (simp [hmi]; done) | (simp; exact hmi)

/-! ## C22: dispatch -/

/-- The transaction found is in the list of the kind searched. -/
theorem find_mem_kind {s : Stack} {evt : MsgEv} {e : Entry}
    (h : osip_find_transaction s evt = some (some e)) :
    ∃ k, searchKind evt = some k ∧ e ∈ s.list k := by
  unfold osip_find_transaction at h
  split at h
  · simp at h
  simp only [Option.bind_eq_bind, Option.bind_eq_some_iff] at h
  obtain ⟨k, hk, h⟩ := h
  refine ⟨k, hk, ?_⟩
  unfold osip_transaction_find at h
  split at h
  · obtain ⟨a, c, h1, _⟩ := findM_some h; rw [h1]; simp
  split at h
  · obtain ⟨a, c, h1, _⟩ := findM_some h; rw [h1]; simp
  · obtain ⟨a, c, h1, _⟩ := findM_some h; rw [h1]; simp

/-- The kind of transaction a message belongs to, by direction, being a request and CSeq method. -/
def rightKind (incoming request : Bool) (method : Str) : Kind :=
  match incoming, request with
  | true, true => if method = "INVITE".toList ∨ method = "ACK".toList then .IST else .NIST
  | true, false => if method = "INVITE".toList then .ICT else .NICT
  | false, true => if method = "INVITE".toList ∨ method = "ACK".toList then .ICT else .NICT
  | false, false => if method = "INVITE".toList then .IST else .NIST

/-- **C22.** An event that is found to belong to a transaction is queued, as last, on exactly one
transaction, which is of the right kind; everything else is unchanged. -/
theorem c22_dispatch {s s' : Stack} (hs : StackReach s) {evt : MsgEv}
    (h : osip_find_transaction_and_add_event s evt = some (s', OSIP_SUCCESS)) :
    ∃ m k before e e' after, evt.m.cseq.bind (·.method) = some m ∧
      k = rightKind evt.incoming (evt.m.status_code == 0) m ∧ e.w.tr.ctx_type = k ∧
      s.list k = before ++ e :: after ∧ s'.list k = before ++ e' :: after ∧
      (∀ k', k' ≠ k → s'.list k' = s.list k') ∧
      e'.transactionid = e.transactionid ∧ e'.w.tr = e.w.tr ∧
      (∃ r, e'.w.queue = e.w.queue ++ [⟨evt.type, some r⟩] ∧ r.m = evt.m) := by
  have hinv := stackReach_sinv hs
  rcases find_add_cases h with ⟨_, _, h1⟩ | ⟨e, h1, _, rfl⟩
  · simp [OSIP_SUCCESS, OSIP_UNDEFINED_ERROR] at h1
  obtain ⟨k, hk, hmem⟩ := find_mem_kind h1
  obtain ⟨req, hc⟩ := hinv.created k e hmem
  have hkind := hc.kind
  simp only [searchKind, Option.bind_eq_bind, Option.bind_eq_some_iff] at hk
  obtain ⟨m, hm, hk⟩ := hk
  obtain ⟨a, c, hac⟩ := List.append_of_mem hmem
  have hsorted := hinv.sorted k
  rw [hac] at hsorted
  simp only [List.map_append, List.map_cons, List.pairwise_append, List.pairwise_cons,
    List.mem_map, List.mem_cons, forall_exists_index, and_imp, forall_apply_eq_imp_iff₂,
    forall_eq_or_imp] at hsorted
  have hupd : updateId (s.list k) e.transactionid (·.addEvent evt) = a ++ e.addEvent evt :: c := by
    rw [hac]
    simp only [updateId, List.map_append, List.map_cons, if_true]
    have h1 : ∀ l : List Entry, (∀ x ∈ l, x.transactionid ≠ e.transactionid) →
        l.map (fun x => if x.transactionid = e.transactionid then x.addEvent evt else x) = l := by
      intro l hl
      conv => rhs; rw [← List.map_id l]
      apply List.map_congr_left
      intro x hx
      simp [hl x hx]
    rw [h1 a (fun x hx => by have := (hsorted.2.2 x hx).1; omega),
      h1 c (fun x hx => by have := hsorted.2.1.1 x hx; omega)]
  refine ⟨m, k, a, e, e.addEvent evt, c, Option.bind_eq_some_iff.2 hm, ?_, hkind, hac, ?_, ?_, rfl,
    rfl, ⟨⟨e.w.next, evt.m⟩, rfl, rfl⟩⟩
  · unfold rightKind
    cases hi : evt.incoming <;> cases hq : (evt.m.status_code == 0) <;>
      simp only [hi, Msg.isRequest, Msg.isResponse, hq, bne, Bool.not_true, Bool.not_false,
        if_true, if_false, Bool.false_eq_true, Option.pure_def, Option.some.injEq] at hk <;>
      simp only [← hk, Bool.or_eq_true, decide_eq_true_eq]
  · rw [hkind, list_setList, if_pos rfl, hupd]
  · intro k' hk'
    rw [hkind, list_setList, if_neg hk']

end Osip
