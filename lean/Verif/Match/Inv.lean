import Verif.Match.Model
import Verif.Fsm.Safe

/-!
# Invariants of the stack
-/

namespace Osip

@[simp] theorem list_setList_self (s : Stack) (k : Kind) (l : List Entry) :
    (s.setList k l).list k = l := by cases k <;> rfl

theorem list_setList (s : Stack) (k k' : Kind) (l : List Entry) :
    (s.setList k l).list k' = if k' = k then l else s.list k' := by
  cases k <;> cases k' <;> rfl

@[simp] theorem setList_id (s : Stack) (k : Kind) (l : List Entry) :
    (s.setList k l).transactionid = s.transactionid := by cases k <;> rfl

/-- Entry `e` was created by `osip_transaction_init` for request `req`, as a transaction of kind
`k`, and any operations happened to it since. -/
structure CreatedBy (req : Msg) (k : Kind) (e : Entry) : Prop where
  reach : ReachFrom (· = req) (fun _ => True) k e.w
  topvia : req.vias.head? = some e.topvia
  via_version : e.topvia.version.isSome = true
  via_protocol : e.topvia.protocol.isSome = true
  via_host : e.topvia.host.isSome = true
  from_ : req.from_ = some e.from_
  to : req.to = some e.to
  callid : req.call_id = some e.callid
  callid_number : e.callid.number.isSome = true
  cseq : req.cseq = some e.cseq
  cseq_method : e.cseq.method.isSome = true
  cseq_number : e.cseq.number.isSome = true

theorem CreatedBy.kind {req : Msg} {k : Kind} {e : Entry} (h : CreatedBy req k e) : e.kind = k :=
  (reach_queue h.reach.reach).1

/-- The world of an entry makes a step. -/
theorem CreatedBy.step {req : Msg} {k : Kind} {e : Entry} (h : CreatedBy req k e) {o : Op}
    {w' : World} (hs : e.w.step o = some w') : CreatedBy req k { e with w := w' } := by
  refine { h with reach := ?_ }
  obtain ⟨a, b, c, d, ops, hR, e1, e2, e3⟩ := h.reach
  refine ⟨a, b, c, d, ops ++ [o], hR, e1, ?_, by simp⟩
  rw [World.run_append, e2]
  simp [World.run, hs]

/-- Queueing an event is an operation of the transaction. -/
theorem addEvent_step {e : Entry} {evt : MsgEv} (h : evtAllowed evt.m = true) :
    ∃ o w', e.w.step o = some w' ∧ e.addEvent evt = { e with w := w' } := by
  cases hi : evt.incoming
  · refine ⟨.outgoing evt.m, (e.addEvent evt).w, ?_, rfl⟩
    simp only [World.step, h, if_true, Entry.addEvent, MsgEv.type, hi]
    rfl
  · refine ⟨.incoming evt.m, (e.addEvent evt).w, ?_, rfl⟩
    simp only [World.step, h, if_true, Entry.addEvent, MsgEv.type, hi]

theorem fromClone_eq {f : Option From} {f' : From} (h : fromClone f = some f') : f = some f' := by
  unfold fromClone at h
  split at h
  · cases h
  · next f =>
    split at h
    · simpa using h
    · next u hu =>
      split at h
      · cases h
      · next u' hu' =>
        simp only [uriClone] at hu'
        split at hu'
        · cases hu'
        · simp only [Option.some.injEq] at hu' h
          subst hu'
          rw [← h]
          cases f
          simp_all

theorem viaClone_eq {v v' : Via} (h : viaClone (some v) = some v') :
    v' = v ∧ v.version.isSome = true ∧ v.protocol.isSome = true ∧ v.host.isSome = true := by
  simp only [viaClone] at h
  split at h
  · cases h
  · next hn =>
    simp only [Bool.or_eq_true, not_or, Option.isNone_iff_eq_none] at hn
    simp only [Option.some.injEq] at h
    refine ⟨h.symm, ?_, ?_, ?_⟩ <;> rw [Option.isSome_iff_ne_none]
    · exact hn.1.1
    · exact hn.1.2
    · exact hn.2

theorem callIdClone_eq {c : Option CallId} {c' : CallId} (h : callIdClone c = some c') :
    c = some c' ∧ c'.number.isSome = true := by
  simp only [callIdClone] at h
  split at h
  · cases h
  · split at h
    · cases h
    · next hn =>
      simp only [Option.some.injEq] at h
      subst h
      exact ⟨rfl, by simpa [Option.isSome_iff_ne_none] using hn⟩

theorem cseqClone_eq {c : Option CSeq} {c' : CSeq} (h : cseqClone c = some c') :
    c = some c' ∧ c'.method.isSome = true ∧ c'.number.isSome = true := by
  simp only [cseqClone] at h
  split at h
  · cases h
  · split at h
    · cases h
    · next hn =>
      simp only [Option.some.injEq] at h
      subst h
      simp only [Bool.or_eq_true, not_or, Option.isNone_iff_eq_none] at hn
      exact ⟨rfl, by simpa [Option.isSome_iff_ne_none] using hn⟩

/-- What `osip_transaction_init` does. -/
theorem transaction_init_cases {s s' : Stack} {k : Kind} {m : Msg} {n1 n2 : TimeVal}
    {r : Option Entry} (h : osip_transaction_init s k m n1 n2 = some (s', r)) :
    (s' = s ∧ r = none) ∨
    (s' = (osip_remove_transaction { s with transactionid := s.transactionid + 1 } k
        s.transactionid).1 ∧ r = none) ∨
    (∃ e, r = some e ∧ e.transactionid = s.transactionid ∧ CreatedBy m k e ∧ e.w.queue = [] ∧
      s' = { s with transactionid := s.transactionid + 1 }.setList k (s.list k ++ [e])) := by
  unfold osip_transaction_init at h
  split at h
  · simp only [Option.some.injEq, Prod.mk.injEq] at h; exact .inl ⟨h.1.symm, h.2.symm⟩
  split at h
  · simp only [Option.some.injEq, Prod.mk.injEq] at h; exact .inl ⟨h.1.symm, h.2.symm⟩
  split at h
  · cases h
  simp only at h
  split at h
  · simp only [Option.some.injEq, Prod.mk.injEq] at h; exact .inr (.inl ⟨h.1.symm, h.2.symm⟩)
  next v vs hv =>
  split at h
  · next topvia from_ to callid cseq h1 h2 h3 h4 h5 =>
    split at h
    · cases h
    · simp only [Option.some.injEq, Prod.mk.injEq] at h; exact .inr (.inl ⟨h.1.symm, h.2.symm⟩)
    · next t ht =>
      simp only [Option.some.injEq, Prod.mk.injEq] at h
      obtain ⟨v1, v2, v3, v4⟩ := viaClone_eq h1
      obtain ⟨c1, c2⟩ := callIdClone_eq h4
      obtain ⟨q1, q2, q3⟩ := cseqClone_eq h5
      refine .inr (.inr ⟨_, h.2.symm, rfl, ?_, rfl, ?_⟩)
      · exact { reach := ⟨n1, n2, m, t, [], rfl, ht, rfl, by simp⟩
                topvia := by simp [hv, v1]
                via_version := by simp [v1, v2]
                via_protocol := by simp [v1, v3]
                via_host := by simp [v1, v4]
                from_ := fromClone_eq h2
                to := fromClone_eq h3
                callid := c1
                callid_number := c2
                cseq := q1
                cseq_method := q2
                cseq_number := q3 }
      · rw [← h.1]
        have : Stack.list { s with transactionid := s.transactionid + 1 } k = s.list k := by
          cases k <;> rfl
        rw [this]
  · simp only [Option.some.injEq, Prod.mk.injEq] at h; exact .inr (.inl ⟨h.1.symm, h.2.symm⟩)

/-- The invariant of a stack: the entries of each list were created properly and belong there, and
ids increase along each list, are below the counter and differ between lists. -/
structure SInv (s : Stack) : Prop where
  created : ∀ k, ∀ e ∈ s.list k, ∃ req, CreatedBy req k e
  below : ∀ k, ∀ e ∈ s.list k, e.transactionid < s.transactionid
  sorted : ∀ k, ((s.list k).map (·.transactionid)).Pairwise (· < ·)
  apart : ∀ k k', k ≠ k' → ∀ e ∈ s.list k, ∀ e' ∈ s.list k', e.transactionid ≠ e'.transactionid

theorem SInv.empty : SInv {} where
  created := by intro k e h; cases k <;> cases h
  below := by intro k e h; cases k <;> cases h
  sorted := by intro k; cases k <;> exact List.Pairwise.nil
  apart := by intro k k' _ e h; cases k <;> cases h

/-- Two stacks have the same entries up to what happened to their state machines. -/
structure Advanced (s s' : Stack) : Prop where
  counter : s'.transactionid = s.transactionid
  ids : ∀ k, (s'.list k).map (·.transactionid) = (s.list k).map (·.transactionid)
  created : ∀ k, ∀ e' ∈ s'.list k, ∃ e ∈ s.list k, e'.transactionid = e.transactionid ∧
    ∀ req, CreatedBy req k e → CreatedBy req k e'

theorem mem_id_of_ids {l l' : List Entry}
    (h : l'.map (·.transactionid) = l.map (·.transactionid)) {e' : Entry} (he : e' ∈ l') :
    ∃ e ∈ l, e.transactionid = e'.transactionid := by
  have : e'.transactionid ∈ l'.map (·.transactionid) := List.mem_map.2 ⟨e', he, rfl⟩
  rw [h, List.mem_map] at this
  exact this

theorem SInv.advanced {s s' : Stack} (h : SInv s) (ha : Advanced s s') : SInv s' where
  created := by
    intro k e he
    obtain ⟨e0, h0, _, h2⟩ := ha.created k e he
    obtain ⟨req, hr⟩ := h.created k e0 h0
    exact ⟨req, h2 req hr⟩
  below := by
    intro k e he
    obtain ⟨e0, h0, h1⟩ := mem_id_of_ids (ha.ids k) he
    rw [ha.counter, ← h1]
    exact h.below k e0 h0
  sorted := by intro k; rw [ha.ids k]; exact h.sorted k
  apart := by
    intro k k' hk e he e' he'
    obtain ⟨e0, h0, h1⟩ := mem_id_of_ids (ha.ids k) he
    obtain ⟨e0', h0', h1'⟩ := mem_id_of_ids (ha.ids k') he'
    rw [← h1, ← h1']
    exact h.apart k k' hk e0 h0 e0' h0'

theorem Advanced.refl (s : Stack) : Advanced s s :=
  ⟨rfl, fun _ => rfl, fun _ e he => ⟨e, he, rfl, fun _ h => h⟩⟩

theorem updateId_ids (l : List Entry) (id : Int) (f : Entry → Entry)
    (hf : ∀ e, (f e).transactionid = e.transactionid) :
    (updateId l id f).map (·.transactionid) = l.map (·.transactionid) := by
  unfold updateId
  rw [List.map_map]
  apply List.map_congr_left
  intro e _
  simp only [Function.comp]
  split
  · exact hf e
  · rfl

theorem advanced_addEvent (s : Stack) (k : Kind) (id : Int) {evt : MsgEv}
    (h : evtAllowed evt.m = true) :
    Advanced s (s.setList k (updateId (s.list k) id (·.addEvent evt))) where
  counter := setList_id _ _ _
  ids := by
    intro k'
    rw [list_setList]
    split
    · next hk => subst hk; exact updateId_ids _ _ _ (fun _ => rfl)
    · rfl
  created := by
    intro k' e' he'
    rw [list_setList] at he'
    split at he'
    · next hk =>
      subst hk
      simp only [updateId, List.mem_map] at he'
      obtain ⟨e, he, hee⟩ := he'
      refine ⟨e, he, ?_⟩
      split at hee
      · subst hee
        refine ⟨rfl, fun req hr => ?_⟩
        obtain ⟨o, w', h1, h2⟩ := addEvent_step (e := e) h
        rw [h2]
        exact hr.step h1
      · subst hee; exact ⟨rfl, fun _ h => h⟩
    · exact ⟨e', he', rfl, fun _ h => h⟩

theorem actList_spec {id : Int} {op : Op} : ∀ {l l' : List Entry}, actList id op l = some l' →
    l'.map (·.transactionid) = l.map (·.transactionid) ∧
    ∀ e' ∈ l', ∃ e ∈ l, e'.transactionid = e.transactionid ∧
      ∀ req k, CreatedBy req k e → CreatedBy req k e' := by
  intro l
  induction l with
  | nil => intro l' h; simp [actList] at h; subst h; simp
  | cons e es ih =>
    intro l' h
    simp only [actList, Option.bind_eq_bind, Option.bind_eq_some_iff] at h
    obtain ⟨es', h1, h2⟩ := h
    obtain ⟨i1, i2⟩ := ih h1
    have hrest : ∀ e' ∈ es', ∃ e0 ∈ e :: es, e'.transactionid = e0.transactionid ∧
        ∀ req k, CreatedBy req k e0 → CreatedBy req k e' := by
      intro e' he'
      obtain ⟨a, b, c⟩ := i2 e' he'
      exact ⟨a, List.mem_cons_of_mem _ b, c⟩
    split at h2
    · simp only [Option.bind_eq_some_iff, Option.pure_def, Option.some.injEq] at h2
      obtain ⟨w', hw, rfl⟩ := h2
      refine ⟨by simp [i1], ?_⟩
      intro e' he'
      rcases List.mem_cons.1 he' with rfl | he'
      · exact ⟨e, by simp, rfl, fun req k hr => hr.step hw⟩
      · exact hrest e' he'
    · simp only [Option.pure_def, Option.some.injEq] at h2
      subst h2
      refine ⟨by simp [i1], ?_⟩
      intro e' he'
      rcases List.mem_cons.1 he' with rfl | he'
      · exact ⟨e', by simp, rfl, fun req k hr => hr⟩
      · exact hrest e' he'

theorem removeId_spec {id : Int} : ∀ {l l' : List Entry}, removeId id l = some l' →
    ∃ a e b, l = a ++ e :: b ∧ l' = a ++ b ∧ e.transactionid = id ∧
      ∀ x ∈ a, x.transactionid ≠ id := by
  intro l
  induction l with
  | nil => intro l' h; cases h
  | cons e es ih =>
    intro l' h
    simp only [removeId] at h
    split at h
    · next he =>
      simp only [Option.some.injEq] at h
      subst h
      exact ⟨[], e, es, rfl, rfl, he, by simp⟩
    · next he =>
      simp only [Option.map_eq_some_iff] at h
      obtain ⟨l1, h1, rfl⟩ := h
      obtain ⟨a, x, b, rfl, rfl, h4, h5⟩ := ih h1
      exact ⟨e :: a, x, b, rfl, rfl, h4, by simpa [he] using h5⟩

theorem removeId_none {id : Int} : ∀ {l : List Entry}, removeId id l = none ↔
    ∀ e ∈ l, e.transactionid ≠ id := by
  intro l
  induction l with
  | nil => simp [removeId]
  | cons e es ih =>
    simp only [removeId]
    split
    · next he => simp [he]
    · next he => simp [ih, he]

theorem SInv.sublist {s : Stack} (h : SInv s) {k : Kind} {l : List Entry}
    (hl : List.Sublist l (s.list k)) : SInv (s.setList k l) where
  created := by
    intro k' e he
    rw [list_setList] at he
    split at he
    · next hk => subst hk; exact h.created _ e (hl.mem he)
    · exact h.created k' e he
  below := by
    intro k' e he
    rw [list_setList] at he
    rw [setList_id]
    split at he
    · next hk => subst hk; exact h.below _ e (hl.mem he)
    · exact h.below k' e he
  sorted := by
    intro k'
    rw [list_setList]
    split
    · exact (h.sorted k).sublist (hl.map _)
    · exact h.sorted k'
  apart := by
    intro k1 k2 hk e he e' he'
    rw [list_setList] at he he'
    have h1 : e ∈ s.list k1 := by
      split at he
      · next hx => subst hx; exact hl.mem he
      · exact he
    have h2 : e' ∈ s.list k2 := by
      split at he'
      · next hx => subst hx; exact hl.mem he'
      · exact he'
    exact h.apart k1 k2 hk e h1 e' h2

theorem SInv.remove {s : Stack} (h : SInv s) (k : Kind) (id : Int) :
    SInv (osip_remove_transaction s k id).1 := by
  unfold osip_remove_transaction
  split
  · next l hl =>
    obtain ⟨a, e, b, h1, rfl, _, _⟩ := removeId_spec hl
    refine h.sublist ?_
    rw [h1]
    exact (List.sublist_cons_self e b).append_left a
  · exact h

theorem SInv.counter {s : Stack} (h : SInv s) :
    SInv { s with transactionid := s.transactionid + 1 } := by
  have hl : ∀ k, Stack.list { s with transactionid := s.transactionid + 1 } k = s.list k := by
    intro k; cases k <;> rfl
  exact {
    created := by intro k; rw [hl]; exact h.created k
    below := by
      intro k e he
      rw [hl] at he
      have := h.below k e he
      show e.transactionid < s.transactionid + 1
      omega
    sorted := by intro k; rw [hl]; exact h.sorted k
    apart := by intro k k' hk; rw [hl, hl]; exact h.apart k k' hk }

theorem SInv.append {s : Stack} (h : SInv s) {k : Kind} {e : Entry}
    (hid : e.transactionid = s.transactionid) {req : Msg} (hc : CreatedBy req k e) :
    SInv ({ s with transactionid := s.transactionid + 1 }.setList k (s.list k ++ [e])) := by
  have hl : ∀ k, Stack.list { s with transactionid := s.transactionid + 1 } k = s.list k := by
    intro k; cases k <;> rfl
  have hmem : ∀ k' x, x ∈ (Stack.setList { s with transactionid := s.transactionid + 1 } k
      (s.list k ++ [e])).list k' ↔ x ∈ s.list k' ∨ (k' = k ∧ x = e) := by
    intro k' x
    rw [list_setList]
    split
    · next hk => subst hk; simp
    · next hk => rw [hl]; simp [hk]
  exact {
    created := by
      intro k' x hx
      rcases (hmem k' x).1 hx with hx | ⟨rfl, rfl⟩
      · exact h.created k' x hx
      · exact ⟨req, hc⟩
    below := by
      intro k' x hx
      rw [setList_id]
      show x.transactionid < s.transactionid + 1
      rcases (hmem k' x).1 hx with hx | ⟨rfl, rfl⟩
      · have := h.below k' x hx; omega
      · omega
    sorted := by
      intro k'
      rw [list_setList]
      split
      · rw [List.map_append, List.pairwise_append]
        refine ⟨h.sorted k, by simp, ?_⟩
        intro a ha b hb
        simp only [List.mem_map] at ha
        obtain ⟨x, hx, rfl⟩ := ha
        simp only [List.map_cons, List.map_nil, List.mem_singleton] at hb
        have := h.below k x hx
        omega
      · rw [hl]; exact h.sorted k'
    apart := by
      intro k1 k2 hk x hx y hy
      rcases (hmem k1 x).1 hx with hx' | ⟨hx1, hx2⟩ <;>
        rcases (hmem k2 y).1 hy with hy' | ⟨hy1, hy2⟩
      · exact h.apart k1 k2 hk x hx' y hy'
      · have := h.below k1 x hx'; rw [hy2]; omega
      · have := h.below k2 y hy'; rw [hx2]; omega
      · exact absurd (hx1.trans hy1.symm) hk }

/-- What `osip_create_transaction` does. -/
theorem create_cases {s s' : Stack} {evt : MsgEv} {n1 n2 : TimeVal} {r : Option Entry}
    (h : osip_create_transaction s evt n1 n2 = some (s', r)) :
    (s' = s ∧ r = none) ∨
    ∃ k, createKind evt = some (some k) ∧ osip_transaction_init s k evt.m n1 n2 = some (s', r) := by
  simp only [osip_create_transaction, Option.bind_eq_bind, Option.bind_eq_some_iff] at h
  obtain ⟨c, h1, h2⟩ := h
  split at h2
  · simp only [Option.pure_def, Option.some.injEq, Prod.mk.injEq] at h2
    exact .inl ⟨h2.1.symm, h2.2.symm⟩
  · next k => exact .inr ⟨k, h1, h2⟩

theorem SInv.init {s s' : Stack} (h : SInv s) {k : Kind} {m : Msg} {n1 n2 : TimeVal}
    {r : Option Entry} (hi : osip_transaction_init s k m n1 n2 = some (s', r)) : SInv s' := by
  rcases transaction_init_cases hi with ⟨rfl, _⟩ | ⟨rfl, _⟩ | ⟨e, _, hid, hc, _, rfl⟩
  · exact h
  · exact h.counter.remove _ _
  · exact h.append hid hc

theorem SInv.create {s s' : Stack} (h : SInv s) {evt : MsgEv} {n1 n2 : TimeVal}
    {r : Option Entry} (hi : osip_create_transaction s evt n1 n2 = some (s', r)) : SInv s' := by
  rcases create_cases hi with ⟨rfl, _⟩ | ⟨k, _, h2⟩
  · exact h
  · exact h.init h2

/-- What `osip_find_transaction_and_add_event` does. -/
theorem find_add_cases {s s' : Stack} {evt : MsgEv} {i : Int}
    (h : osip_find_transaction_and_add_event s evt = some (s', i)) :
    (osip_find_transaction s evt = some none ∧ s' = s ∧ i = OSIP_UNDEFINED_ERROR) ∨
    ∃ e, osip_find_transaction s evt = some (some e) ∧ i = OSIP_SUCCESS ∧
      s' = s.setList e.kind (updateId (s.list e.kind) e.transactionid (·.addEvent evt)) := by
  simp only [osip_find_transaction_and_add_event, Option.bind_eq_bind,
    Option.bind_eq_some_iff] at h
  obtain ⟨c, h1, h2⟩ := h
  split at h2
  · simp only [Option.pure_def, Option.some.injEq, Prod.mk.injEq] at h2
    exact .inl ⟨h1, h2.1.symm, h2.2.symm⟩
  · next e =>
    simp only [Option.pure_def, Option.some.injEq, Prod.mk.injEq] at h2
    exact .inr ⟨e, h1, h2.2.symm, h2.1.symm⟩

theorem find_add_advanced {s s' : Stack} {evt : MsgEv} {i : Int} (ha : evtAllowed evt.m = true)
    (h : osip_find_transaction_and_add_event s evt = some (s', i)) : Advanced s s' := by
  rcases find_add_cases h with ⟨_, rfl, _⟩ | ⟨e, _, _, rfl⟩
  · exact Advanced.refl _
  · exact advanced_addEvent _ _ _ ha

/-- What the usual treatment of a received message does. -/
theorem receive_cases {s s' : Stack} {m : Msg} {n1 n2 : TimeVal}
    (h : s.receive m n1 n2 = some s') :
    s' = s ∨ (evtAllowed m = true ∧
    ((∃ i, osip_find_transaction_and_add_event s { incoming := true, m } = some (s', i)) ∨
    (osip_find_transaction s { incoming := true, m } = some none ∧
      (osip_create_transaction s { incoming := true, m } n1 n2 = some (s', none) ∨
      ∃ s1 e, osip_create_transaction s { incoming := true, m } n1 n2 = some (s1, some e) ∧
        s' = s1.setList e.kind (updateId (s1.list e.kind) e.transactionid
          (·.addEvent { incoming := true, m })))))) := by
  unfold Stack.receive at h
  simp only at h
  split at h
  · simp only [Option.pure_def, Option.some.injEq] at h
    exact .inl h.symm
  · next ha =>
    simp only [Bool.not_eq_true, Bool.not_eq_false] at ha
    refine .inr ⟨ha, ?_⟩
    simp only [Option.bind_eq_bind, Option.bind_eq_some_iff, Prod.exists] at h
    obtain ⟨s1, i, h1, h2⟩ := h
    split at h2
    · simp only [Option.pure_def, Option.some.injEq] at h2
      subst h2
      exact .inl ⟨i, h1⟩
    · next hi =>
      right
      have hnone : osip_find_transaction s { incoming := true, m } = some none := by
        rcases find_add_cases h1 with ⟨h, _, _⟩ | ⟨e, _, h, _⟩
        · exact h
        · exact absurd h hi
      refine ⟨hnone, ?_⟩
      simp only [Option.bind_eq_some_iff, Prod.exists] at h2
      obtain ⟨s2, r, h3, h4⟩ := h2
      cases r with
      | none =>
        simp only [Option.pure_def, Option.some.injEq] at h4
        subst h4
        exact .inl h3
      | some e =>
        simp only [Option.pure_def, Option.some.injEq] at h4
        exact .inr ⟨s2, e, h3, h4.symm⟩

theorem SInv.step {s s' : Stack} (h : SInv s) {o : SOp} (hs : s.step o = some s') : SInv s' := by
  cases o with
  | receive m n1 n2 =>
    rcases receive_cases hs with rfl | ⟨ha, ⟨i, h1⟩ | ⟨_, h1 | ⟨s1, e, h1, rfl⟩⟩⟩
    · exact h
    · exact h.advanced (find_add_advanced (evt := { incoming := true, m }) ha h1)
    · exact h.create h1
    · exact (h.create h1).advanced (advanced_addEvent (evt := { incoming := true, m }) _ _ _ ha)
  | deliver evt =>
    simp only [Stack.step] at hs
    split at hs
    · next ha =>
      simp only [Option.map_eq_some_iff, Prod.exists] at hs
      obtain ⟨s1, i, h1, rfl⟩ := hs
      exact h.advanced (find_add_advanced ha h1)
    · simp only [Option.some.injEq] at hs; exact hs ▸ h
  | create evt n1 n2 =>
    simp only [Stack.step] at hs
    split at hs
    · simp only [Option.map_eq_some_iff, Prod.exists] at hs
      obtain ⟨s1, r, h1, rfl⟩ := hs
      exact h.create h1
    · simp only [Option.some.injEq] at hs; exact hs ▸ h
  | remove k id =>
    simp only [Stack.step, Option.some.injEq] at hs
    exact hs ▸ h.remove k id
  | act id op =>
    simp only [Stack.step, Option.bind_eq_bind, Option.bind_eq_some_iff, Option.pure_def,
      Option.some.injEq] at hs
    obtain ⟨a, ha, b, hb, c, hc, d, hd, rfl⟩ := hs
    refine h.advanced ⟨rfl, ?_, ?_⟩
    · intro k
      cases k
      · exact (actList_spec ha).1
      · exact (actList_spec hb).1
      · exact (actList_spec hc).1
      · exact (actList_spec hd).1
    · intro k e' he'
      cases k
      · obtain ⟨e, h1, h2, h3⟩ := (actList_spec ha).2 e' he'; exact ⟨e, h1, h2, fun _ => h3 _ _⟩
      · obtain ⟨e, h1, h2, h3⟩ := (actList_spec hb).2 e' he'; exact ⟨e, h1, h2, fun _ => h3 _ _⟩
      · obtain ⟨e, h1, h2, h3⟩ := (actList_spec hc).2 e' he'; exact ⟨e, h1, h2, fun _ => h3 _ _⟩
      · obtain ⟨e, h1, h2, h3⟩ := (actList_spec hd).2 e' he'; exact ⟨e, h1, h2, fun _ => h3 _ _⟩

theorem Stack.run_append (s : Stack) (a b : List SOp) :
    s.run (a ++ b) = (s.run a).bind (fun s' => s'.run b) := by
  induction a generalizing s with
  | nil => rfl
  | cons o os ih =>
    simp only [List.cons_append, Stack.run, Option.bind_eq_bind]
    cases s.step o with
    | none => rfl
    | some s' => simp [ih]

/-- Invariants of reachable stacks. -/
theorem stackReach_inv {I : Stack → Prop} (h0 : I {})
    (hstep : ∀ s o s', SInv s → I s → s.step o = some s' → I s') {s : Stack}
    (h : StackReach s) : I s := by
  obtain ⟨ops, hr⟩ := h
  have key : ∀ ops (s s' : Stack), SInv s → I s → s.run ops = some s' → I s' := by
    intro ops
    induction ops with
    | nil => intro s s' _ hi h; simp [Stack.run] at h; exact h ▸ hi
    | cons o os ih =>
      intro s s' hs hi h
      simp only [Stack.run, Option.bind_eq_bind, Option.bind_eq_some_iff] at h
      obtain ⟨s1, h1, h2⟩ := h
      exact ih s1 s' (hs.step h1) (hstep _ _ _ hs hi h1) h2
  exact key ops _ _ SInv.empty h0 hr

/-- Whatever happens, the transactions that were there keep their list, id and creator. -/
structure Later (s s' : Stack) : Prop where
  counter : s.transactionid ≤ s'.transactionid
  old : ∀ k, ∀ e' ∈ s'.list k, e'.transactionid < s.transactionid →
    ∃ e ∈ s.list k, e.transactionid = e'.transactionid ∧
      ∀ req, CreatedBy req k e → CreatedBy req k e'

theorem Later.refl (s : Stack) : Later s s :=
  ⟨Int.le_refl _, fun _ e he _ => ⟨e, he, rfl, fun _ h => h⟩⟩

theorem Later.trans {a b c : Stack} (h : Later a b) (h' : Later b c) : Later a c where
  counter := Int.le_trans h.counter h'.counter
  old := by
    intro k e he hl
    have := h.counter
    obtain ⟨e1, h1, h2, h3⟩ := h'.old k e he (by omega)
    obtain ⟨e2, h4, h5, h6⟩ := h.old k e1 h1 (by omega)
    exact ⟨e2, h4, by omega, fun req hr => h3 _ (h6 _ hr)⟩

theorem Advanced.later {s s' : Stack} (h : Advanced s s') : Later s s' where
  counter := by rw [h.counter]; exact Int.le_refl _
  old := by
    intro k e he _
    obtain ⟨e1, h1, h2, h3⟩ := h.created k e he
    exact ⟨e1, h1, h2.symm, h3⟩

theorem later_remove (s : Stack) (k : Kind) (id : Int) :
    Later s (osip_remove_transaction s k id).1 := by
  unfold osip_remove_transaction
  split
  · next l hl =>
    obtain ⟨a, e, b, h1, rfl, _, _⟩ := removeId_spec hl
    refine ⟨by simp, ?_⟩
    intro k' e' he' _
    refine ⟨e', ?_, rfl, fun _ h => h⟩
    simp only [list_setList] at he'
    split at he'
    · next hk =>
      subst hk
      rw [h1]
      simp only [List.mem_append, List.mem_cons] at he' ⊢
      rcases he' with h | h
      · exact .inl h
      · exact .inr (.inr h)
    · exact he'
  · exact Later.refl s

theorem later_counter (s : Stack) : Later s { s with transactionid := s.transactionid + 1 } where
  counter := by show s.transactionid ≤ s.transactionid + 1; omega
  old := by
    intro k e he _
    refine ⟨e, ?_, rfl, fun _ h => h⟩
    cases k <;> exact he

theorem later_init {s s' : Stack} {k : Kind} {m : Msg} {n1 n2 : TimeVal}
    {r : Option Entry} (hi : osip_transaction_init s k m n1 n2 = some (s', r)) : Later s s' := by
  rcases transaction_init_cases hi with ⟨rfl, _⟩ | ⟨rfl, _⟩ | ⟨e, _, hid, hc, _, rfl⟩
  · exact Later.refl _
  · exact (later_counter s).trans (later_remove _ _ _)
  · refine ⟨by rw [setList_id]; show s.transactionid ≤ s.transactionid + 1; omega, ?_⟩
    intro k' e' he' hlt
    refine ⟨e', ?_, rfl, fun _ h => h⟩
    rw [list_setList] at he'
    split at he'
    · next hk =>
      subst hk
      simp only [List.mem_append, List.mem_singleton] at he'
      rcases he' with h | h
      · exact h
      · subst h; omega
    · cases k' <;> exact he'

theorem later_create {s s' : Stack} {evt : MsgEv} {n1 n2 : TimeVal}
    {r : Option Entry} (hi : osip_create_transaction s evt n1 n2 = some (s', r)) : Later s s' := by
  rcases create_cases hi with ⟨rfl, _⟩ | ⟨k, _, h2⟩
  · exact Later.refl _
  · exact later_init h2

theorem act_advanced {s s' : Stack} {id : Int} {op : Op} (hs : s.step (.act id op) = some s') :
    Advanced s s' := by
  simp only [Stack.step, Option.bind_eq_bind, Option.bind_eq_some_iff, Option.pure_def,
    Option.some.injEq] at hs
  obtain ⟨a, ha, b, hb, c, hc, d, hd, rfl⟩ := hs
  refine ⟨rfl, ?_, ?_⟩
  · intro k
    cases k
    · exact (actList_spec ha).1
    · exact (actList_spec hb).1
    · exact (actList_spec hc).1
    · exact (actList_spec hd).1
  · intro k e' he'
    cases k
    · obtain ⟨e, h1, h2, h3⟩ := (actList_spec ha).2 e' he'; exact ⟨e, h1, h2, fun _ => h3 _ _⟩
    · obtain ⟨e, h1, h2, h3⟩ := (actList_spec hb).2 e' he'; exact ⟨e, h1, h2, fun _ => h3 _ _⟩
    · obtain ⟨e, h1, h2, h3⟩ := (actList_spec hc).2 e' he'; exact ⟨e, h1, h2, fun _ => h3 _ _⟩
    · obtain ⟨e, h1, h2, h3⟩ := (actList_spec hd).2 e' he'; exact ⟨e, h1, h2, fun _ => h3 _ _⟩

theorem later_step {s s' : Stack} {o : SOp} (hs : s.step o = some s') : Later s s' := by
  cases o with
  | receive m n1 n2 =>
    rcases receive_cases hs with rfl | ⟨ha, ⟨i, h1⟩ | ⟨_, h1 | ⟨s1, e, h1, rfl⟩⟩⟩
    · exact Later.refl _
    · exact (find_add_advanced (evt := { incoming := true, m }) ha h1).later
    · exact later_create h1
    · exact (later_create h1).trans
        (advanced_addEvent (evt := { incoming := true, m }) _ _ _ ha).later
  | deliver evt =>
    simp only [Stack.step] at hs
    split at hs
    · next ha =>
      simp only [Option.map_eq_some_iff, Prod.exists] at hs
      obtain ⟨s1, i, h1, rfl⟩ := hs
      exact (find_add_advanced ha h1).later
    · simp only [Option.some.injEq] at hs; subst hs; exact Later.refl _
  | create evt n1 n2 =>
    simp only [Stack.step] at hs
    split at hs
    · simp only [Option.map_eq_some_iff, Prod.exists] at hs
      obtain ⟨s1, r, h1, rfl⟩ := hs
      exact later_create h1
    · simp only [Option.some.injEq] at hs; subst hs; exact Later.refl _
  | remove k id =>
    simp only [Stack.step, Option.some.injEq] at hs
    subst hs
    exact later_remove s k id
  | act id op => exact (act_advanced hs).later

theorem later_run {ops : List SOp} : ∀ {s s' : Stack}, s.run ops = some s' → Later s s' := by
  induction ops with
  | nil => intro s s' h; simp [Stack.run] at h; subst h; exact Later.refl _
  | cons o os ih =>
    intro s s' h
    simp only [Stack.run, Option.bind_eq_bind, Option.bind_eq_some_iff] at h
    obtain ⟨s1, h1, h2⟩ := h
    exact (later_step h1).trans (ih h2)

theorem StackReach.run {s s' : Stack} {ops : List SOp} (h : StackReach s)
    (hr : s.run ops = some s') : StackReach s' := by
  obtain ⟨ops0, h0⟩ := h
  exact ⟨ops0 ++ ops, by rw [Stack.run_append, h0]; exact hr⟩

theorem StackReach.step {s s' : Stack} {o : SOp} (h : StackReach s)
    (hr : s.step o = some s') : StackReach s' :=
  h.run (ops := [o]) (by simp [Stack.run, hr])

/-- In a list with increasing ids, the id tells the entry. -/
theorem eq_of_id {l : List Entry} (h : (l.map (·.transactionid)).Pairwise (· < ·)) {a b : Entry}
    (ha : a ∈ l) (hb : b ∈ l) (hab : a.transactionid = b.transactionid) : a = b := by
  induction l with
  | nil => cases ha
  | cons x xs ih =>
    simp only [List.map_cons, List.pairwise_cons, List.mem_map, forall_exists_index, and_imp,
      forall_apply_eq_imp_iff₂] at h
    rcases List.mem_cons.1 ha with ha' | ha' <;> rcases List.mem_cons.1 hb with hb' | hb'
    · rw [ha', hb']
    · have := h.1 b hb'; rw [← ha'] at this; omega
    · have := h.1 a ha'; rw [← hb'] at this; omega
    · exact ih h.2 ha' hb'

theorem stackReach_sinv {s : Stack} (h : StackReach s) : SInv s :=
  stackReach_inv (I := SInv) SInv.empty (fun _ _ _ _ h hs => h.step hs) h

end Osip
