import Verif.Match.PropsLate

/-!
# C124: a late copy of a final response is absorbed
-/

set_option autoImplicit false

namespace Osip

/-! ## The transaction through the history of the stack -/

/-- A transaction made by `osip_create_transaction` has seen nothing yet. -/
theorem create_world {s s1 : Stack} (hs : StackReach s) {evt : MsgEv} {n1 n2 : TimeVal}
    (h1 : s.step (.create evt n1 n2) = some s1) {k : Kind} {e : Entry} (he : e ∈ s1.list k)
    (hnew : e.transactionid ∉ s.ids) :
    CreatedBy evt.m k e ∧ osip_create_transaction s evt n1 n2 = some (s1, some e) ∧
      ∃ t, transactionInit k n1 n2 evt.m = some (.ok t) ∧ e.w = World.init t := by
  simp only [Stack.step] at h1
  split at h1
  · simp only [Option.map_eq_some_iff] at h1
    obtain ⟨⟨s', r⟩, hc, rfl⟩ := h1
    have hmem : ∀ x, e ∈ x → x = s.list k → False := fun x hx hxs => hnew (mem_ids (hxs ▸ hx))
    rcases create_cases hc with ⟨rfl, _⟩ | ⟨k', hk', h3⟩
    · exact (hnew (mem_ids he)).elim
    · rcases transaction_init_cases h3 with ⟨rfl, _⟩ | ⟨rfl, _⟩ | ⟨x, rfl, hid, hcx, _, rfl⟩
      · exact (hnew (mem_ids he)).elim
      · exfalso
        unfold osip_remove_transaction at he
        have hr : removeId s.transactionid (s.list k') = none := removeId_none.2 (by
          intro y hy
          have := (stackReach_sinv hs).below k' y hy
          omega)
        have : Stack.list { s with transactionid := s.transactionid + 1 } k' = s.list k' := by
          cases k' <;> rfl
        rw [this, hr] at he
        exact hnew (mem_ids (k := k) (by cases k <;> exact he))
      · obtain ⟨t, ht, hw⟩ := init_world h3
        simp only at he
        rw [list_setList] at he
        split at he
        · next hk =>
          subst hk
          rcases List.mem_append.1 he with he | he
          · exact (hnew (mem_ids he)).elim
          · rw [List.mem_singleton] at he
            subst he
            exact ⟨hcx, hc, t, ht, hw⟩
        · exact (hnew (mem_ids (k := k) (by cases k <;> exact he))).elim
  · simp only [Option.some.injEq] at h1
    subst h1
    exact (hnew (mem_ids he)).elim

/-- A transaction that is not removed is there all the time. -/
theorem accompanies_run {s s2 : Stack} (hs : StackReach s) {k : Kind} {e : Entry} (he : e ∈ s.list k) :
    ∀ (n : Nat) {a : List SOp} {s2 : Stack}, a.length = n → (∀ k', .remove k' e.transactionid ∉ a) →
    s.run a = some s2 → ∃ b w, Accompanies k e.transactionid s e.w a b s2 w := by
  intro n
  induction n with
  | zero =>
    intro a s2 hn _ hr
    rw [List.length_eq_zero_iff] at hn
    subst hn
    simp only [Stack.run, Option.some.injEq] at hr
    subst hr
    exact ⟨[], e.w, .nil⟩
  | succ n ih =>
    intro a s2 hn hno hr
    rcases List.eq_nil_or_concat a with rfl | ⟨a', o, rfl⟩
    · cases hn
    rw [List.concat_eq_append] at hn hr hno ⊢
    rw [Stack.run_append] at hr
    simp only [Option.bind_eq_some_iff] at hr
    obtain ⟨sa, hra, hro⟩ := hr
    simp only [Stack.run, Option.bind_eq_bind, Option.bind_eq_some_iff, Option.some.injEq] at hro
    obtain ⟨s2', hst, rfl⟩ := hro
    obtain ⟨b, w, hf⟩ := ih (a := a') (by simpa using hn)
      (fun k' h => hno k' (List.mem_append_left _ h)) hra
    obtain ⟨ea, q1, q2, q3⟩ := hf.mem ⟨e, he, rfl, rfl⟩
    have hsa := stackReach_sinv (hs.run hra)
    obtain ⟨e', p1, os, p2, p3, p4⟩ := entry_step hsa hst q1 (by
      rintro k' rfl
      exact hno k' (by rw [q2]; simp))
    exact ⟨b ++ os, e'.w, .snoc hf hst ⟨e', p1, by omega, rfl⟩ (q3 ▸ p3) (q2 ▸ p4)⟩

/-! ## Finding the transaction of a response -/

theorem response_types {r : Msg} (hr : r.status_code ≠ 0) :
    (MsgEv.type { incoming := true, m := r }).isIncomingReq = false ∧
    (MsgEv.type { incoming := true, m := r }).isIncomingResp = true := by
  have hreq : r.isRequest = false := by simp [Msg.isRequest, hr]
  constructor
  all_goals
    simp only [MsgEv.type, if_true, evt_type_incoming, hreq, Bool.false_eq_true, if_false]
    repeat' split
    all_goals rfl

/-- A response that matches a client transaction is found to belong to it or an older one. -/
theorem find_of_response {s : Stack} (hs : StackReach s) {r : Msg} (hr : r.status_code ≠ 0) {k : Kind}
    (hk : searchKind { incoming := true, m := r } = some k) {e : Entry} (he : e ∈ s.list k)
    (hmatch : matching_response e r = some OSIP_SUCCESS) : Recognised s r k e.transactionid := by
  have hinv := stackReach_sinv hs
  obtain ⟨h1, h2⟩ := response_types hr
  have hc : r.cseq.isNone = false := by
    simp only [searchKind, Option.bind_eq_bind, Option.bind_eq_some_iff] at hk
    obtain ⟨a, ⟨b, h1, h2⟩, _⟩ := hk
    simp [h1]
  have hfind : osip_find_transaction s { incoming := true, m := r } =
      findM (fun t => (matching_response t r).map (· == 0)) (s.list k) := by
    simp only [osip_find_transaction, hc, Bool.false_eq_true, if_false, hk, Option.bind_eq_bind,
      Option.bind_some, osip_transaction_find, h1, h2, if_true]
  have hsome : ∀ x ∈ s.list k, ((matching_response x r).map (· == 0)).isSome = true := by
    intro x hx
    obtain ⟨req, hcx⟩ := hinv.created k x hx
    simpa using matching_response_isSome hcx.cseq_method r
  obtain ⟨x, hx, hfx, hle⟩ : ∃ x ∈ s.list k,
      findM (fun t => (matching_response t r).map (· == 0)) (s.list k) = some (some x) ∧
      x.transactionid ≤ e.transactionid := by
    have hsort := hinv.sorted k
    generalize s.list k = l at *
    clear hfind
    induction l with
    | nil => cases he
    | cons y ys ih =>
      obtain ⟨b, hb⟩ := Option.isSome_iff_exists.1 (hsome y (by simp))
      simp only [findM, hb, Option.bind_eq_bind, Option.bind_some]
      cases b with
      | true =>
        refine ⟨y, by simp, rfl, ?_⟩
        rcases List.mem_cons.1 he with rfl | he
        · exact Int.le_refl _
        · simp only [List.map_cons, List.pairwise_cons] at hsort
          exact Int.le_of_lt (hsort.1 _ (List.mem_map_of_mem he))
      | false =>
        rcases List.mem_cons.1 he with rfl | he
        · rw [hmatch] at hb
          simp [OSIP_SUCCESS] at hb
        · simp only [List.map_cons, List.pairwise_cons] at hsort
          obtain ⟨x, q1, q2, q3⟩ := ih he (fun z hz => hsome z (by simp [hz])) hsort.2
          exact ⟨x, by simp [q1], by simpa using q2, q3⟩
  have hfound := hfind.trans hfx
  refine ⟨⟨x, hx, hfound, hle⟩, ?_⟩
  intro n1 n2 s' hst
  have hids : ∀ {a b : Stack}, Advanced a b → b.ids = a.ids := by
    intro a b hab
    have h1 := hab.ids .ICT
    have h2 := hab.ids .IST
    have h3 := hab.ids .NICT
    have h4 := hab.ids .NIST
    simp only [Stack.list] at h1 h2 h3 h4
    simp only [Stack.ids, List.map_append, h1, h2, h3, h4]
  rcases receive_cases hst with rfl | ⟨ha, ⟨i, h2⟩ | ⟨hn, _⟩⟩
  · rfl
  · exact hids (find_add_advanced (evt := { incoming := true, m := r }) ha h2)
  · rw [hfound] at hn; simp at hn

/-! ## The property -/

/-- The state in which a client transaction absorbs copies of a final response, and for how long
RFC 3261 wants it to over an unreliable transport, in milliseconds (timers D and K). -/
def absorbing : Kind → Option (State × Int)
  | .ICT => some (.ICT_COMPLETED, 32000)
  | .NICT => some (.NICT_COMPLETED, 5000)
  | _ => none

/-- **C124 (the transaction waits).** A program created a client transaction for a request to be sent
over an unreliable transport. At `m1` the transaction took a final response and went to COMPLETED.
The program does not remove it, timer events come from the timer loop only, no transport error is
reported, and until now its timers were not run later than 32 s (INVITE) or 5 s (others) after `m1`;
the clock was not set back behind `m1`. Then, whatever else happened in the stack, the transaction is
still in COMPLETED, and every response with the branch of the request and its CSeq method is found to
belong to it or to an older transaction, and receiving it creates no transaction. -/
theorem c124_waits {s s1 sa sb s2 : Stack} (hs : StackReach s) {evt : MsgEv} {n1 n2 : TimeVal}
    (h1 : s.step (.create evt n1 n2) = some s1) {k : Kind} {st : State} {ms : Int}
    (hk : absorbing k = some (st, ms)) {e : Entry} (he : e ∈ s1.list k)
    (hnew : e.transactionid ∉ s.ids) (hu : Unreliable evt.m) {a c : List SOp} {send : Int}
    {m1 m2 : TimeVal} (hm1 : m1.Normal) (hm2 : m2.Normal) (hle : m1.micros ≤ m2.micros)
    (ha : s1.run a = some sa) (hb : sa.step (.act e.transactionid (.exec send m1 m2)) = some sb)
    (hc : sb.run c = some s2)
    (hkept : ∀ k', .remove k' e.transactionid ∉ a ∧ .remove k' e.transactionid ∉ c)
    (htimers : ∀ op, .act e.transactionid op ∈ a ++ c → ∀ t, op ≠ .timer t)
    (hbefore : ∀ x ∈ sa.list k, x.transactionid = e.transactionid → x.w.tr.state ≠ st)
    (hafter : ∀ x ∈ sb.list k, x.transactionid = e.transactionid → x.w.tr.state = st)
    (htime : ∀ op, .act e.transactionid op ∈ c → InTime m1.micros (m1.micros + ms * 1000) op)
    (herr : ∀ x ∈ s2.list k, x.transactionid = e.transactionid → NoTransportError x.w) :
    (∃ x ∈ s2.list k, x.transactionid = e.transactionid ∧ x.w.tr.state = st) ∧
    ∀ r v v' b meth, r.status_code ≠ 0 → evt.m.vias.head? = some v → r.vias.head? = some v' →
      IsBranch v b → IsBranch v' b → evt.m.cseq.bind (·.method) = some meth →
      r.cseq.bind (·.method) = some meth → Recognised s2 r k e.transactionid := by
  obtain ⟨hcr, hcreate, t, ht, hw⟩ := create_world hs h1 he hnew
  have hs1 := hs.step h1
  have hsa := hs1.run ha
  have hsb := hsa.step hb
  have hs2 := hsb.run hc
  obtain ⟨b1, w1, f1⟩ := accompanies_run (s2 := sa) hs1 he a.length rfl (fun k' => (hkept k').1) ha
  obtain ⟨xa, p1, p2, p3⟩ := f1.mem ⟨e, he, rfl, rfl⟩
  obtain ⟨xb, r1, os, r2, r3, r4⟩ := entry_step (stackReach_sinv hsa) hb p1 (by rintro k' h; cases h)
  obtain ⟨b3, w3, f3⟩ := accompanies_run (s2 := s2) hsb r1 c.length rfl
    (fun k' => by rw [r2, p2]; exact (hkept k').2) hc
  obtain ⟨x2, g1, g2, g3⟩ := f3.mem ⟨xb, r1, rfl, rfl⟩
  have hos : os = [.exec send m1 m2] := by
    rcases r4 with ⟨op, q1, q2⟩ | ⟨q1, _⟩
    · simp only [SOp.act.injEq] at q1
      rw [q2, q1.2]
    · exact absurd (by rw [p2]) (q1 (.exec send m1 m2))
  subst hos
  have hx2 : x2.transactionid = e.transactionid := by omega
  have hstep : xa.w.step (.exec send m1 m2) = some xb.w := by
    simp only [World.run, Option.bind_eq_bind, Option.bind_eq_some_iff, Option.some.injEq] at r3
    obtain ⟨w', q1, rfl⟩ := r3
    exact q1
  have hsx := hafter xb r1 (by omega)
  have hreach : ReachFrom (Over false) TimersInOrder k xa.w := by
    refine ⟨n1, n2, evt.m, t, b1, by simpa [Over] using hu, ht, ?_, ?_⟩
    · rw [← hw, p3]
      exact f1.world
    · intro o ho
      rcases f1.sees o ho with h | ⟨m', rfl | rfl⟩
      · exact htimers o (List.mem_append_left _ h)
      · intro t h; cases h
      · intro t h; cases h
  have hwait : ∃ x, waitOf false xb.w.tr.state = some (x, ms) := by
    rw [hsx]
    cases k <;> simp only [absorbing, Option.some.injEq, Prod.mk.injEq, reduceCtorEq] at hk
    all_goals
      obtain ⟨rfl, rfl⟩ := hk
      exact ⟨_, rfl⟩
  obtain ⟨x, hwait⟩ := hwait
  have hin : ∀ o ∈ b3, TimersInOrder o ∧ InTime m1.micros (m1.micros + ms * 1000) o := by
    intro o ho
    rcases f3.sees o ho with h | ⟨m', rfl | rfl⟩
    · have hid : xb.transactionid = e.transactionid := by omega
      rw [hid] at h
      exact ⟨htimers o (List.mem_append_right _ h), htime o h⟩
    all_goals
      refine ⟨(by intro t h; cases h), ⟨?_, (by intro t h; cases h)⟩⟩
      intro t ht
      simp [Op.readings] at ht
  have hst : w3.tr.state = st := by
    rcases c121_stays hreach hm1 hm2 hle hstep (by rw [hsx]; exact fun h => hbefore xa p1 p2 h.symm)
      hwait (ops := b3) hin f3.world (by rw [← g3]; exact herr x2 g1 hx2) with h | ⟨h, _⟩
    · rw [h, hsx]
    · exfalso
      rw [hsx] at h
      cases k <;> simp only [absorbing, Option.some.injEq, Prod.mk.injEq, reduceCtorEq] at hk
      all_goals
        rw [← hk.1] at h
        cases h
  refine ⟨⟨x2, g1, hx2, by rw [g3, hst]⟩, ?_⟩
  intro r v v' b meth hr hv hv' hbv hbv' hmeth hrm
  -- the transaction still has the Via and the CSeq of the request
  have hlater : Later s1 s2 := (later_run ha).trans ((later_step hb).trans (later_run hc))
  have hinv := stackReach_sinv hs1
  obtain ⟨e0, q1, q2, q3⟩ := hlater.old k x2 g1 (by rw [hx2]; exact hinv.below k e he)
  have : e0 = e := eq_of_id (hinv.sorted k) q1 he (by omega)
  subst this
  have hcx := q3 evt.m hcr
  have hkk : k = .ICT ∨ k = .NICT := by
    cases k <;> simp [absorbing] at hk ⊢
  have hmatch : matching_response x2 r = some OSIP_SUCCESS := by
    refine (c18_response_matching (by rw [hcx.kind]; exact hkk) r).2 ⟨v', b, meth, hv', hbv', ?_, hrm, ?_⟩
    · have := hcx.topvia
      rw [hv] at this
      simp only [Option.some.injEq] at this
      rw [← this]
      exact hbv
    · have := hcx.cseq
      rw [this] at hmeth
      exact hmeth
  rw [← hx2]
  refine find_of_response hs2 hr ?_ g1 hmatch
  have hkind : k = if meth = "INVITE".toList then .ICT else .NICT := by
    rcases create_cases hcreate with ⟨_, h⟩ | ⟨k', hk', h3⟩
    · cases h
    · rcases transaction_init_cases h3 with ⟨_, h⟩ | ⟨_, h⟩ | ⟨y, hy, _, hcy, _, _⟩
      · cases h
      · cases h
      cases hy
      have : k' = k := hcy.kind.symm.trans hcr.kind
      subst this
      obtain ⟨_, mm, z1, z2, z3, z4⟩ := createKind_some hk'
      have : mm = meth := by simpa [hmeth] using z2.symm
      subst this
      rcases hkk with rfl | rfl
      all_goals
        revert z4
        cases evt.incoming <;> by_cases hi : mm = "INVITE".toList <;> simp only [hi] <;> simp
  have hreq : r.isRequest = false := by simp [Msg.isRequest, hr]
  simp only [searchKind, hrm, Option.bind_eq_bind, Option.bind_some, if_true, hreq, Bool.false_eq_true,
    if_false, Option.pure_def, decide_eq_true_eq, hkind]

/-- **C124 (copies are absorbed).** A client transaction in COMPLETED executes a response. The program
is not told a response; at most, for an INVITE and a response of 300 or more, that it came again and that
the ACK was sent again, and the ACK it has sent before is sent, once. Nothing is sent otherwise. The
transaction does not change, unless the transport reports an error. -/
theorem c124_absorbed {k : Kind} {w w' : World} (h : Reach k w) {ms : Int}
    (hst : absorbing k = some (w.tr.state, ms)) {ev : Ev} {q : List Ev} (hq : w.queue = ev :: q)
    (hev : ev.type.isIncomingResp = true) {send : Int} {n1 n2 : TimeVal}
    (hx : w.step (.exec send n1 n2) = some w') :
    ∃ d, w'.trace = w.trace ++ d ∧ w'.queue = q ∧ (send = 0 → w'.tr = w.tr) ∧
      (∀ c r, .cb c r ∈ d → c = .ICT_STATUS_3456XX_RECEIVED_AGAIN ∨ c = .ICT_ACK_SENT_AGAIN) ∧
      (¬ (k = .ICT ∧ ev.type = .RCV_STATUS_3456XX) → w'.tr = w.tr ∧ ∀ x ∈ d, x.isMem = true) ∧
      (k = .ICT → ev.type = .RCV_STATUS_3456XX → ∃ ack, w.tr.ack = some ack ∧
        d.filter Eff.isSend = [.send ack w.tr.ict.destination w.tr.ict.port]) := by
  obtain ⟨hk, _⟩ := reach_queue h
  simp only [World.step, hq, Option.bind_eq_bind, Option.bind_eq_some_iff, Prod.exists,
    Option.pure_def, Option.some.injEq] at hx
  obtain ⟨t, e, r, he, rfl⟩ := hx
  refine ⟨e, rfl, rfl, ?_⟩
  have hmem : ∀ o : Option Ref, ∀ x ∈ freeOpt o, x.isMem = true := by
    intro o x hx
    cases o <;> simp [freeOpt] at hx
    rw [hx]
    rfl
  have hnocb : ∀ (o : Option Ref) c r, Eff.cb c r ∈ freeOpt o → False := by
    intro o c r hx
    cases hmem o _ hx
  cases k <;> simp only [absorbing, Option.some.injEq, Prod.mk.injEq, reduceCtorEq] at hst
  · have hack := (reach_ictInv h).ack hst.1.symm
    obtain ⟨ack, hack⟩ := Option.isSome_iff_exists.1 hack
    cases hty : ev.type <;> simp only [hty, EvType.isIncomingResp, reduceCtorEq, Bool.false_eq_true] at hev
    case RCV_STATUS_3456XX =>
      simp only [osip_transaction_execute, hty, hk, ← hst.1, reduceCtorEq, if_false] at he
      have : fsm_findmethod .RCV_STATUS_3456XX .ICT_COMPLETED (tableOf .ICT) = some .ict_retransmit_ack := by
        decide
      simp only [this, H.run, ict_retransmit_ack, hack, sendMsg, Option.bind_eq_bind, Option.bind_some,
        Option.pure_def] at he
      by_cases hs : send = 0
      · simp only [hs, if_true, Option.bind_some, Option.some.injEq, Prod.mk.injEq] at he
        obtain ⟨rfl, rfl, _⟩ := he
        refine ⟨fun _ => ?_, ?_, fun h => absurd ⟨rfl, rfl⟩ h, fun _ _ => ⟨ack, hack, ?_⟩⟩
        · rw [hst.1, ← hack]
        · intro c r hc
          simp only [List.cons_append, List.mem_cons, List.mem_append, Eff.cb.injEq, reduceCtorEq,
            List.not_mem_nil, or_false, false_or] at hc
          rcases hc with ⟨rfl, _⟩ | hc | ⟨rfl, _⟩
          · exact .inl rfl
          · exact (hnocb _ _ _ hc).elim
          · exact .inr rfl
        · cases ev.sip <;> simp [freeOpt, Eff.isSend, List.filter_cons]
      · simp only [hs, if_false, ict_handle_transport_error, Option.bind_some, Option.some.injEq, Prod.mk.injEq] at he
        obtain ⟨rfl, rfl, _⟩ := he
        refine ⟨fun h => absurd h hs, ?_, fun h => absurd ⟨rfl, rfl⟩ h, fun _ _ => ⟨ack, hack, ?_⟩⟩
        · intro c r hc
          simp only [List.cons_append, List.mem_cons, List.mem_append, Eff.cb.injEq, reduceCtorEq,
            List.not_mem_nil, or_false, false_or] at hc
          rcases hc with ⟨rfl, _⟩ | hc
          · exact .inl rfl
          · exact (hnocb _ _ _ hc).elim
        · cases ev.sip <;> simp [freeOpt, Eff.isSend, List.filter_cons]
    all_goals
      simp only [osip_transaction_execute, hty, hk, ← hst.1, reduceCtorEq, if_false] at he
      first
        | rw [show fsm_findmethod .RCV_STATUS_1XX .ICT_COMPLETED (tableOf .ICT) = none by decide] at he
        | rw [show fsm_findmethod .RCV_STATUS_2XX .ICT_COMPLETED (tableOf .ICT) = none by decide] at he
      simp only [EvType.isMsg, if_true, Option.some.injEq, Prod.mk.injEq] at he
      obtain ⟨rfl, rfl, _⟩ := he
      exact ⟨fun _ => rfl, fun c r hc => (hnocb _ _ _ hc).elim, fun _ => ⟨rfl, hmem _⟩, fun _ h => by cases h⟩
  · cases hty : ev.type <;> simp only [hty, EvType.isIncomingResp, reduceCtorEq, Bool.false_eq_true] at hev
    all_goals
      simp only [osip_transaction_execute, hty, hk, ← hst.1, reduceCtorEq, if_false] at he
      first
        | rw [show fsm_findmethod .RCV_STATUS_1XX .NICT_COMPLETED (tableOf .NICT) = none by decide] at he
        | rw [show fsm_findmethod .RCV_STATUS_2XX .NICT_COMPLETED (tableOf .NICT) = none by decide] at he
        | rw [show fsm_findmethod .RCV_STATUS_3456XX .NICT_COMPLETED (tableOf .NICT) = none by decide] at he
      simp only [EvType.isMsg, if_true, Option.some.injEq, Prod.mk.injEq] at he
      obtain ⟨rfl, rfl, _⟩ := he
      exact ⟨fun _ => rfl, fun c r hc => (hnocb _ _ _ hc).elim, fun _ => ⟨rfl, hmem _⟩, fun h => by cases h⟩

/-! ## Concrete runs -/

namespace Ex

/-- An INVITE is sent and refused. -/
def refused : List SOp :=
  [.create ⟨false, request "UDP" "INVITE", 0⟩ (at0 1000) (at0 1000), .act 1 (.outgoing (request "UDP" "INVITE")),
    .act 1 (.exec 0 (at0 1000) (at0 1000)), .receive (response 486 "UDP" "INVITE") (at0 1001) (at0 1001),
    .act 1 (.exec 0 (at0 1001) (at0 1001))]

/-- Half a minute later a copy of the response comes. -/
def copyOfRefusal : List SOp :=
  [.act 1 (.tick (at0 1033)), .receive (response 486 "UDP" "INVITE") (at0 1033) (at0 1033),
    .act 1 (.exec 0 (at0 1033) (at0 1033))]

/-- An OPTIONS request is sent and answered. -/
def answered : List SOp :=
  [.create ⟨false, request "UDP" "OPTIONS", 0⟩ (at0 1000) (at0 1000), .act 1 (.outgoing (request "UDP" "OPTIONS")),
    .act 1 (.exec 0 (at0 1000) (at0 1000)), .receive (response 200 "UDP" "OPTIONS") (at0 1001) (at0 1001),
    .act 1 (.exec 0 (at0 1001) (at0 1001))]

def copyOfAnswer : List SOp :=
  [.act 1 (.tick (at0 1006)), .receive (response 200 "UDP" "OPTIONS") (at0 1006) (at0 1006),
    .act 1 (.exec 0 (at0 1006) (at0 1006))]

end Ex

open Ex

/-- `c124_waits` and `c124_absorbed` apply to these runs: the transaction enters COMPLETED in the last
operation of `refused`, is there after 32 s, and the copy makes it send the ACK again. -/
example :
    ((({} : Stack).run (refused.take 4)).map (·.icts.map (·.w.tr.state)) = some [.ICT_CALLING]) ∧
    ((({} : Stack).run refused).map (·.icts.map (·.w.tr.state)) = some [.ICT_COMPLETED]) ∧
    ((({} : Stack).run (refused ++ copyOfRefusal)).map (·.icts.map fun e =>
      (e.w.tr.state, e.w.trace.countP (·.isSend), e.w.trace.countP (·.isCbIn [.ICT_STATUS_4XX_RECEIVED]),
        e.w.trace.countP (·.isCbIn [.ICT_STATUS_3456XX_RECEIVED_AGAIN]))) = some [(.ICT_COMPLETED, 3, 1, 1)]) := by
  decide +kernel

/-- The same with an OPTIONS request after 5 s: nothing is sent or reported; a second later the timers
end the transaction, and a copy that comes then belongs to no transaction. -/
example :
    ((({} : Stack).run answered).map (·.nicts.map (·.w.tr.state)) = some [.NICT_COMPLETED]) ∧
    ((({} : Stack).run (answered ++ copyOfAnswer)).map (·.nicts.map fun e =>
      (e.w.tr.state, e.w.trace.countP (·.isSend), e.w.trace.countP (·.isCbIn [.NICT_STATUS_2XX_RECEIVED]))) =
        some [(.NICT_COMPLETED, 1, 1)]) ∧
    ((({} : Stack).run (answered ++ [.act 1 (.tick (at0 1007)), .act 1 (.exec 0 (at0 1007) (at0 1007))])).map
      (·.nicts.map (·.w.tr.state)) = some [.NICT_TERMINATED]) := by
  decide +kernel

/-- The response has the branch and the CSeq method of the request, which goes over UDP. -/
example : Unreliable (request "UDP" "INVITE") ∧ ∃ v v' b m,
    (request "UDP" "INVITE").vias.head? = some v ∧ (response 486 "UDP" "INVITE").vias.head? = some v' ∧
    IsBranch v b ∧ IsBranch v' b ∧ (request "UDP" "INVITE").cseq.bind (·.method) = some m ∧
    (response 486 "UDP" "INVITE").cseq.bind (·.method) = some m :=
  ⟨⟨"UDP".toList, rfl, by rw [← isReliable_iff]; decide +kernel⟩, _, _, "z9hG4bK776".toList, _, rfl, rfl,
    ⟨[], _, [], rfl, by simp, by decide, rfl⟩, ⟨[], _, [], rfl, by simp, by decide, rfl⟩, rfl, rfl⟩

end Osip
