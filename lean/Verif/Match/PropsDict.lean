import Verif.Match.Dict
import Verif.Match.Examples
import Verif.Match.PropsAbsorb

/-!
# C134: What the hash tables find

The tables of a library built with `dict` hold live transactions only, and where a branch is given out
once they find what the lists find. They compare the branch and nothing else, though.
-/

set_option autoImplicit false

namespace Osip

/-! ## Lemmas -/

theorem branchValue_iff (v : Via) (b : Str) : branchValue v = some b ↔ IsBranch v b := by
  rw [isBranch_iff, branchValue, Option.bind_eq_some_iff]

/-- The invariant: an entry of a table is a transaction of the list with that branch. -/
structure HInv (h : HStack) : Prop where
  stack : SInv h.s
  live : ∀ k b id, (b, id) ∈ h.tab k → ∃ e ∈ h.s.list k, e.transactionid = id ∧ IsBranch e.topvia b

theorem HInv.empty : HInv {} where
  stack := SInv.empty
  live := by intro k b id h; cases h

theorem advanced_keeps {s s' : Stack} (h : SInv s) (ha : Advanced s s') {k : Kind} {e : Entry}
    (he : e ∈ s.list k) : ∃ e' ∈ s'.list k, e'.transactionid = e.transactionid ∧ e'.topvia = e.topvia := by
  obtain ⟨e', h1, h2⟩ := mem_id_of_ids (ha.ids k).symm he
  obtain ⟨e0, h3, h4, h5⟩ := ha.created k e' h1
  have : e0 = e := eq_of_id (h.sorted k) h3 he (by omega)
  subst this
  obtain ⟨req, hr⟩ := h.created k e0 h3
  refine ⟨e', h1, h2, ?_⟩
  have a := hr.topvia
  have b := (h5 req hr).topvia
  rw [a] at b
  simpa using b.symm

theorem HInv.advanced {h : HStack} (hi : HInv h) {s' : Stack} (ha : Advanced h.s s') :
    HInv { h with s := s' } where
  stack := hi.stack.advanced ha
  live := by
    intro k b id hm
    obtain ⟨e, h1, h2, h3⟩ := hi.live k b id hm
    obtain ⟨e', q1, q2, q3⟩ := advanced_keeps hi.stack ha h1
    exact ⟨e', q1, by omega, q3 ▸ h3⟩

theorem HInv.queue {h : HStack} (hi : HInv h) (e : Entry) {evt : MsgEv} (ha : evtAllowed evt.m = true) :
    HInv (h.queue e evt) :=
  hi.advanced (advanced_addEvent _ _ _ ha)

theorem dict_search_mem {t : HTable} {b : Str} {id : Int} (h : dict_search t b = some id) :
    (b, id) ∈ t := by
  simp only [dict_search, Option.map_eq_some_iff] at h
  obtain ⟨⟨b', id'⟩, h1, h2⟩ := h
  have := List.find?_some h1
  have hm := List.mem_of_find?_eq_some h1
  simp only [decide_eq_true_eq] at this
  simp only at h2
  subst this h2
  exact hm

theorem mem_addKey {h : HStack} {k k' : Kind} {e : Entry} {b : Str} {id : Int}
    (hm : (b, id) ∈ (h.addKey k e).tab k') :
    (b, id) ∈ h.tab k' ∨ (k' = k ∧ IsBranch e.topvia b ∧ id = e.transactionid) := by
  unfold HStack.addKey at hm
  split at hm
  · next b' hb =>
    simp only [HStack.setTab] at hm
    split at hm
    · next hk =>
      subst hk
      unfold dict_insert at hm
      split at hm
      · exact .inl hm
      · rcases List.mem_cons.1 hm with hm | hm
        · simp only [Prod.mk.injEq] at hm
          exact .inr ⟨rfl, (branchValue_iff _ _).1 (hm.1 ▸ hb), hm.2⟩
        · exact .inl hm
    · exact .inl hm
  · exact .inl hm

theorem mem_removeKey {h : HStack} {k k' : Kind} {v : Via} {b : Str} {id : Int}
    (hm : (b, id) ∈ (h.removeKey k v).tab k') :
    (b, id) ∈ h.tab k' ∧ (k' = k → ¬ IsBranch v b) := by
  unfold HStack.removeKey at hm
  split at hm
  · next b' hb =>
    simp only [HStack.setTab] at hm
    split at hm
    · next hk =>
      subst hk
      simp only [dict_remove, List.mem_filter, decide_eq_true_eq] at hm
      refine ⟨hm.1, fun _ hv => hm.2 ?_⟩
      have := (branchValue_iff _ _).2 hv
      rw [hb] at this
      simpa using this.symm
    · next hk => exact ⟨hm, fun h => absurd h hk⟩
  · next hb =>
    refine ⟨hm, fun _ hv => ?_⟩
    rw [(branchValue_iff _ _).2 hv] at hb
    cases hb

theorem HInv.init {h h' : HStack} (hi : HInv h) {k : Kind} {m : Msg} {n1 n2 : TimeVal}
    {r : Option Entry} (hr : h.osip_transaction_init k m n1 n2 = some (h', r)) : HInv h' := by
  unfold HStack.osip_transaction_init at hr
  split at hr
  · cases hr
  · next s' e heq =>
    simp only [Option.some.injEq, Prod.mk.injEq] at hr
    obtain ⟨rfl, _⟩ := hr
    refine ⟨hi.stack.init heq, ?_⟩
    intro k' b id hm
    rcases transaction_init_cases heq with ⟨_, h2⟩ | ⟨_, h2⟩ | ⟨e', h2, _, _, _, rfl⟩
    · cases h2
    · cases h2
    · simp only [Option.some.injEq] at h2
      subst h2
      have hl : ∀ k, Stack.list { h.s with transactionid := h.s.transactionid + 1 } k = h.s.list k := by
        intro k; cases k <;> rfl
      rcases mem_addKey hm with hm | ⟨rfl, q1, q2⟩
      · obtain ⟨x, p1, p2, p3⟩ := hi.live k' b id hm
        refine ⟨x, ?_, p2, p3⟩
        simp only [list_setList, hl]
        split
        · next hk => subst hk; exact List.mem_append_left _ p1
        · exact p1
      · refine ⟨e, ?_, q2.symm, q1⟩
        simp [list_setList]
  · next s' heq =>
    have hlist : ∀ k, s'.list k = h.s.list k := by
      rcases transaction_init_cases heq with ⟨h1, _⟩ | ⟨h1, _⟩ | ⟨e', h2, _⟩
      · intro k; rw [h1]
      · intro k'
        have hl : ∀ k, Stack.list { h.s with transactionid := h.s.transactionid + 1 } k = h.s.list k := by
          intro k; cases k <;> rfl
        have hno : removeId h.s.transactionid
            (Stack.list { h.s with transactionid := h.s.transactionid + 1 } k) = none := by
          rw [removeId_none, hl]
          intro e he
          have := hi.stack.below k e he
          omega
        rw [h1, osip_remove_transaction, hno]
        exact hl k'
      · cases h2
    split at hr
    · simp only [Option.some.injEq, Prod.mk.injEq] at hr
      obtain ⟨rfl, _⟩ := hr
      refine ⟨hi.stack.init heq, ?_⟩
      intro k' b id hm
      obtain ⟨x, p1, p2, p3⟩ := hi.live k' b id hm
      exact ⟨x, by simpa [hlist] using p1, p2, p3⟩
    · split at hr
      · cases hr
      · split at hr
        · cases hr
        · simp only [Option.some.injEq, Prod.mk.injEq] at hr
          obtain ⟨rfl, _⟩ := hr
          refine ⟨hi.stack.init heq, ?_⟩
          intro k' b id hm
          obtain ⟨x, p1, p2, p3⟩ := hi.live k' b id (mem_removeKey hm).1
          exact ⟨x, by simpa [hlist] using p1, p2, p3⟩

theorem HInv.create {h h' : HStack} (hi : HInv h) {evt : MsgEv} {n1 n2 : TimeVal}
    {r : Option Entry} (hr : h.osip_create_transaction evt n1 n2 = some (h', r)) : HInv h' := by
  simp only [HStack.osip_create_transaction, Option.bind_eq_bind, Option.bind_eq_some_iff] at hr
  obtain ⟨c, _, h2⟩ := hr
  split at h2
  · simp only [Option.pure_def, Option.some.injEq, Prod.mk.injEq] at h2
    exact h2.1 ▸ hi
  · exact hi.init h2

theorem HInv.remove {h : HStack} (hi : HInv h) (k : Kind) (id : Int) (v : Via) :
    HInv (h.osip_remove_transaction k id v).1 := by
  refine ⟨hi.stack.remove k id, ?_⟩
  intro k' b i hm
  obtain ⟨h1, h2⟩ := mem_removeKey hm
  obtain ⟨x, p1, p2, p3⟩ := hi.live k' b i h1
  refine ⟨x, ?_, p2, p3⟩
  show x ∈ (Osip.osip_remove_transaction h.s k id).1.list k'
  unfold osip_remove_transaction
  split
  · next l hl =>
    obtain ⟨a, e, c, q1, rfl, q3, q4⟩ := removeId_spec hl
    rw [list_setList]
    split
    · next hk =>
      subst hk
      have hne : x ≠ e := by
        rintro rfl
        apply h2 rfl
        have : (h.s.list k').find? (fun e => decide (e.transactionid = id)) = some x := by
          rw [List.find?_eq_some_iff_append]
          refine ⟨by simpa using q3, a, c, q1, ?_⟩
          intro y hy
          simpa using q4 y hy
        rw [this]
        exact p3
      rw [q1] at p1
      simp only [List.mem_append, List.mem_cons] at p1 ⊢
      rcases p1 with h | h | h
      · exact .inl h
      · exact absurd h hne
      · exact .inr h
    · exact p1
  · exact p1

theorem HInv.find_add {h h' : HStack} (hi : HInv h) {evt : MsgEv} {i : Int}
    (ha : evtAllowed evt.m = true)
    (hr : h.osip_find_transaction_and_add_event evt = some (h', i)) : HInv h' := by
  simp only [HStack.osip_find_transaction_and_add_event, Option.bind_eq_bind,
    Option.bind_eq_some_iff] at hr
  obtain ⟨c, _, h2⟩ := hr
  split at h2
  · simp only [Option.pure_def, Option.some.injEq, Prod.mk.injEq] at h2
    exact h2.1 ▸ hi
  · simp only [Option.pure_def, Option.some.injEq, Prod.mk.injEq] at h2
    exact h2.1 ▸ hi.queue _ ha

theorem HInv.step {h h' : HStack} (hi : HInv h) {o : HOp} (hs : h.step o = some h') : HInv h' := by
  cases o with
  | receive m n1 n2 =>
    simp only [HStack.step, HStack.receive] at hs
    split at hs
    · simp only [Option.pure_def, Option.some.injEq] at hs
      exact hs ▸ hi
    · next ha =>
      simp only [Bool.not_eq_true, Bool.not_eq_false] at ha
      simp only [Option.bind_eq_bind, Option.bind_eq_some_iff, Prod.exists] at hs
      obtain ⟨h1, i, q1, q2⟩ := hs
      split at q2
      · simp only [Option.pure_def, Option.some.injEq] at q2
        exact q2 ▸ hi.find_add (evt := { incoming := true, m }) ha q1
      · simp only [Option.bind_eq_some_iff, Prod.exists] at q2
        obtain ⟨h2, r, q3, q4⟩ := q2
        cases r with
        | none =>
          simp only [Option.pure_def, Option.some.injEq] at q4
          exact q4 ▸ hi.create q3
        | some e =>
          simp only [Option.pure_def, Option.some.injEq] at q4
          exact q4 ▸ (hi.create q3).queue (evt := { incoming := true, m }) e ha
  | deliver evt =>
    simp only [HStack.step] at hs
    split at hs
    · next ha =>
      simp only [Option.map_eq_some_iff, Prod.exists] at hs
      obtain ⟨s1, i, h1, rfl⟩ := hs
      exact hi.find_add ha h1
    · simp only [Option.some.injEq] at hs; exact hs ▸ hi
  | create evt n1 n2 =>
    simp only [HStack.step] at hs
    split at hs
    · simp only [Option.map_eq_some_iff, Prod.exists] at hs
      obtain ⟨s1, i, h1, rfl⟩ := hs
      exact hi.create h1
    · simp only [Option.some.injEq] at hs; exact hs ▸ hi
  | remove k id v =>
    simp only [HStack.step, Option.some.injEq] at hs
    exact hs ▸ hi.remove k id v
  | act id op =>
    simp only [HStack.step, Option.map_eq_some_iff] at hs
    obtain ⟨s', hs, rfl⟩ := hs
    exact hi.advanced (act_advanced hs)

theorem hreach_inv {h : HStack} (hr : HReach h) : HInv h := by
  obtain ⟨ops, hr⟩ := hr
  have key : ∀ ops (a b : HStack), HInv a → a.run ops = some b → HInv b := by
    intro ops
    induction ops with
    | nil => intro a b hi h; simp [HStack.run] at h; exact h ▸ hi
    | cons o os ih =>
      intro a b hi h
      simp only [HStack.run, Option.bind_eq_bind, Option.bind_eq_some_iff] at h
      obtain ⟨c, h1, h2⟩ := h
      exact ih c b (hi.step h1) h2
  exact key ops _ _ HInv.empty hr

theorem incoming_type {evt : MsgEv} :
    (evt.type.isIncomingReq || evt.type.isIncomingResp) = evt.incoming := by
  unfold MsgEv.type
  cases evt.incoming
  · simp only [Bool.false_eq_true, if_false, evt_type_outgoing]
    repeat' split
    all_goals rfl
  · simp only [if_true, evt_type_incoming]
    repeat' split
    all_goals rfl

/-- What the test of the list search is for an incoming message. -/
def listTest (r : Msg) (e : Entry) : Option Int :=
  if r.status_code = 0 then matching_request e r else matching_response e r

theorem incoming_list {evt : MsgEv} (hi : evt.incoming = true) (l : List Entry) :
    Osip.osip_transaction_find l evt = findM (fun t => (listTest evt.m t).map (· == 0)) l := by
  have hor := incoming_type (evt := evt)
  have hq := incomingReq_iff evt
  unfold osip_transaction_find listTest
  by_cases h0 : evt.m.status_code = 0
  · simp only [hq.2 ⟨hi, h0⟩, if_true, h0]
  · have h1 : evt.type.isIncomingReq = false := by
      cases h : evt.type.isIncomingReq with
      | false => rfl
      | true => exact absurd (hq.1 h).2 h0
    rw [h1, hi] at hor
    simp only [Bool.false_or] at hor
    simp only [h1, hor, Bool.false_eq_true, if_false, if_true, h0]

theorem listTest_via {r : Msg} {e : Entry} (h : listTest r e = some OSIP_SUCCESS) : r.vias ≠ [] := by
  intro hv
  unfold listTest at h
  split at h
  · unfold matching_request at h
    rw [hv] at h
    repeat' split at h
    all_goals simp_all [OSIP_SUCCESS, OSIP_BADPARAMETER, OSIP_SYNTAXERROR]
  · unfold matching_response at h
    rw [hv] at h
    repeat' split at h
    all_goals simp_all [OSIP_SUCCESS, OSIP_BADPARAMETER, OSIP_SYNTAXERROR]

theorem searchKind_some {evt : MsgEv} {k : Kind} (h : searchKind evt = some k) :
    ∃ m, evt.m.cseq.bind (·.method) = some m := by
  simp only [searchKind, Option.bind_eq_bind, Option.bind_eq_some_iff] at h
  obtain ⟨m, h1, _⟩ := h
  exact ⟨m, Option.bind_eq_some_iff.2 h1⟩

theorem tableKind_some {evt : MsgEv} (ha : evtAllowed evt.m = true) {k : Kind}
    (hk : searchKind evt = some k) : ∃ k', tableKind evt.m = some k' := by
  obtain ⟨m, hm⟩ := searchKind_some hk
  unfold tableKind
  by_cases h : evt.m.isRequest = true
  · simp only [evtAllowed, h, Bool.not_true, Bool.false_or, Bool.and_eq_true] at ha
    obtain ⟨m', hm'⟩ := Option.isSome_iff_exists.1 ha.1
    simp [h, hm']
  · simp only [h, hm]
    simp

/-- The lookup in a table of a reachable stack is defined and gives a transaction of the list. -/
theorem lookup_some {h : HStack} (hi : HInv h) (k : Kind) (b : Str) :
    (dict_search (h.tab k) b = none ∧ h.lookup k b = some none) ∨
    ∃ e, h.lookup k b = some (some e) ∧ e ∈ h.s.list k ∧ IsBranch e.topvia b := by
  unfold HStack.lookup
  cases hd : dict_search (h.tab k) b with
  | none => exact .inl ⟨rfl, rfl⟩
  | some id =>
    obtain ⟨e, h1, h2, h3⟩ := hi.live k b id (dict_search_mem hd)
    right
    cases hf : (h.s.list k).find? (fun e => decide (e.transactionid = id)) with
    | none =>
      have := List.find?_eq_none.1 hf e h1
      simp [h2] at this
    | some x =>
      have q1 := List.find?_some hf
      have q2 := List.mem_of_find?_eq_some hf
      simp only [decide_eq_true_eq] at q1
      have : x = e := eq_of_id (hi.stack.sorted k) q2 h1 (by omega)
      subst this
      exact ⟨x, by simp [hf], q2, h3⟩

/-! ## The property -/

/-- The tables never hold anything but transactions of the stack, under their own branch: whatever is
created, fails to be created, is removed once or twice, or happens to the transactions, an entry of a
table is in the list beside it. -/
theorem c134_live {h : HStack} (hs : HReach h) {k : Kind} {b : Str} {id : Int}
    (hm : dict_search (h.tab k) b = some id) :
    ∃ e ∈ h.s.list k, e.transactionid = id ∧ IsBranch e.topvia b :=
  (hreach_inv hs).live k b id (dict_search_mem hm)

/-- A message that is looked up in the tables is found to belong to a transaction whenever a search of
the lists finds one, and the transaction found is that of the lists or has the branch of the message.
For outgoing messages nothing changes. Missing in the first case: that the transaction is the same, see
`c134_violated`. -/
theorem c134_found_partial {h : HStack} (hs : HReach h) {evt : MsgEv} (ha : evtAllowed evt.m = true)
    {r : Option Entry} (hl : osip_find_transaction h.s evt = some r) :
    ∃ r', h.osip_find_transaction evt = some r' ∧ (r.isSome = true → r'.isSome = true) ∧
      (evt.incoming = false → r' = r) ∧
      ∀ e', r' = some e' → r = some e' ∨
        ∃ k v b, e' ∈ h.s.list k ∧ evt.m.vias.head? = some v ∧ IsBranch v b ∧ IsBranch e'.topvia b := by
  have hi := hreach_inv hs
  unfold osip_find_transaction at hl
  unfold HStack.osip_find_transaction
  split at hl
  · next hc =>
    simp only [Option.some.injEq] at hl
    subst hl
    exact ⟨none, by simp [hc], by simp, fun _ => rfl, by simp⟩
  · next hc =>
    simp only [Option.bind_eq_bind, Option.bind_eq_some_iff] at hl
    obtain ⟨k, hk, hl⟩ := hl
    simp only [hc, if_false, hk, Option.bind_eq_bind, Option.bind_some, HStack.osip_transaction_find,
      incoming_type, Bool.false_eq_true]
    cases hemp : (h.s.list k).isEmpty with
    | true =>
      rw [List.isEmpty_iff] at hemp
      rw [hemp] at hl
      have : r = none := by
        unfold osip_transaction_find at hl
        repeat' split at hl
        all_goals simpa [findM] using hl.symm
      subst this
      exact ⟨none, by simp, by simp, fun _ => rfl, by simp⟩
    | false =>
      cases hin : evt.incoming with
      | false => exact ⟨r, by simpa using hl, id, fun _ => rfl, fun e' h => .inl h⟩
      | true =>
        simp only [Bool.false_eq_true, if_false, if_true]
        cases hv : evt.m.vias with
        | nil =>
          refine ⟨none, rfl, ?_, by simp, by simp⟩
          intro hsome
          obtain ⟨e, rfl⟩ := Option.isSome_iff_exists.1 hsome
          rw [incoming_list hin] at hl
          obtain ⟨_, _, _, h2, _⟩ := findM_some hl
          simp only [Option.map_eq_some_iff] at h2
          obtain ⟨i, h3, h4⟩ := h2
          have : i = 0 := by simpa using h4
          subst this
          exact absurd hv (listTest_via h3)
        | cons v vs =>
          simp only
          cases hb : branchValue v with
          | none => exact ⟨r, hl, id, by simp, fun e' h => .inl h⟩
          | some b =>
            obtain ⟨k', hk'⟩ := tableKind_some ha hk
            simp only [hk', Option.bind_some]
            rcases lookup_some hi k' b with ⟨_, h1⟩ | ⟨e, h1, h2, h3⟩
            · rw [h1]
              exact ⟨r, hl, id, by simp, fun e' h => .inl h⟩
            · rw [h1]
              refine ⟨some e, rfl, by simp, by simp, ?_⟩
              intro e' he'
              simp only [Option.some.injEq] at he'
              subst he'
              exact .inr ⟨k', v, b, h2, rfl, (branchValue_iff _ _).1 hb, h3⟩

/-- The tables and the lists agree on a message if the only transaction with its branch, among those
searched, matches it and no transaction with another branch does. -/
theorem find_agrees {h : HStack} (hs : HReach h) {evt : MsgEv} (hin : evt.incoming = true) {k : Kind}
    (hk : searchKind evt = some k) (hk' : tableKind evt.m = some k) {v : Via} {b : Str}
    (hv : evt.m.vias.head? = some v) (hb : IsBranch v b)
    (hone : ∀ e ∈ h.s.list k, ∀ e' ∈ h.s.list k, IsBranch e.topvia b → IsBranch e'.topvia b →
      e.transactionid = e'.transactionid)
    (hmatch : ∀ e ∈ h.s.list k, listTest evt.m e = some OSIP_SUCCESS ↔ IsBranch e.topvia b)
    {r : Option Entry} (hl : osip_find_transaction h.s evt = some r) :
    h.osip_find_transaction evt = some r := by
  have hi := hreach_inv hs
  obtain ⟨m, hm⟩ := searchKind_some hk
  have hc : evt.m.cseq.isNone = false := by
    cases h : evt.m.cseq with
    | none => simp [h] at hm
    | some c => rfl
  simp only [osip_find_transaction, hc, Bool.false_eq_true, if_false, hk, Option.bind_eq_bind,
    Option.bind_some] at hl
  simp only [HStack.osip_find_transaction, hc, Bool.false_eq_true, if_false, hk, Option.bind_eq_bind,
    Option.bind_some, HStack.osip_transaction_find, incoming_type, hin, if_true]
  cases hvs : evt.m.vias with
  | nil => simp [hvs] at hv
  | cons v' vs =>
    simp only [hvs, List.head?_cons, Option.some.injEq] at hv
    subst hv
    simp only [(branchValue_iff _ _).2 hb, hk', Option.bind_some]
    split
    · next hemp =>
      rw [List.isEmpty_iff] at hemp
      rw [hemp, incoming_list hin] at hl
      exact hl
    · rcases lookup_some hi k b with ⟨_, h1⟩ | ⟨e, h1, h2, h3⟩
      · rw [h1]; exact hl
      · rw [h1]
        rw [incoming_list hin] at hl
        have hsucc := (hmatch e h2).2 h3
        have htest : ((listTest evt.m e).map (· == 0)) = some true := by
          rw [hsucc]; rfl
        cases r with
        | none =>
          have := findM_none hl e h2
          rw [htest] at this
          cases this
        | some x =>
          obtain ⟨a, c, q1, q2, _⟩ := findM_some hl
          have hx : x ∈ h.s.list k := by rw [q1]; simp
          simp only [Option.map_eq_some_iff] at q2
          obtain ⟨i, q3, q4⟩ := q2
          have : i = 0 := by simpa using q4
          subst this
          have hbx := (hmatch x hx).1 q3
          have : x = e := eq_of_id (hi.stack.sorted k) hx h2 (hone x hx e h2 hbx h3)
          rw [this]
          rfl

/-- A response finds through the tables what it finds through the lists, if no two of the client
transactions in question have its branch and the one that has it has its method. -/
theorem c134_response_partial {h : HStack} (hs : HReach h) {r : Msg} (hr : r.status_code ≠ 0)
    {v : Via} {b m : Str} (hv : r.vias.head? = some v) (hb : IsBranch v b)
    (hm : r.cseq.bind (·.method) = some m) {k : Kind}
    (hk : k = if m = "INVITE".toList then .ICT else .NICT)
    (hone : ∀ e ∈ h.s.list k, ∀ e' ∈ h.s.list k, IsBranch e.topvia b → IsBranch e'.topvia b →
      e.transactionid = e'.transactionid)
    (hmeth : ∀ e ∈ h.s.list k, IsBranch e.topvia b → e.cseq.method = some m)
    {x : Option Entry} (hl : osip_find_transaction h.s { incoming := true, m := r } = some x) :
    h.osip_find_transaction { incoming := true, m := r } = some x := by
  have hi := hreach_inv hs
  have hreq : r.isRequest = false := by simp [Msg.isRequest, hr]
  have hsk : searchKind { incoming := true, m := r } = some k := by
    simp [searchKind, hm, hreq, hk]
  have htk : tableKind r = some k := by
    simp [tableKind, hm, hreq, hk]
  have hkk : k = .ICT ∨ k = .NICT := by
    rw [hk]; split
    · exact .inl rfl
    · exact .inr rfl
  refine find_agrees hs (evt := { incoming := true, m := r }) rfl hsk htk hv hb hone ?_ hl
  intro e he
  obtain ⟨req, hc⟩ := hi.stack.created k e he
  have hek : e.kind = .ICT ∨ e.kind = .NICT := by rw [hc.kind]; exact hkk
  simp only [listTest, hr, if_false]
  rw [c18_response_matching hek]
  constructor
  · rintro ⟨v', b', m', q1, q2, q3, _, _⟩
    rw [hv] at q1
    simp only [Option.some.injEq] at q1
    subst q1
    have := ((branchValue_iff _ _).2 q2).symm.trans ((branchValue_iff _ _).2 hb)
    simp only [Option.some.injEq] at this
    exact this ▸ q3
  · intro hbe
    exact ⟨v, b, m, hv, hb, hbe, hm, hmeth e he hbe⟩

/-- A request finds through the tables what it finds through the lists, if its branch and those of the
server transactions in question begin with the magic cookie, no two of them have its branch, and the
one that has it came from the same place with the same method (or the request is an ACK to its
INVITE). -/
theorem c134_request_partial {h : HStack} (hs : HReach h) {r : Msg} (hr : r.status_code = 0)
    {v : Via} {b m : Str} (hv : r.vias.head? = some v) (hb : IsBranch v b) (hmag : Magic b)
    (hm : r.cseq.bind (·.method) = some m) (hsm : r.sip_method = some m) {k : Kind}
    (hk : k = if m = "INVITE".toList ∨ m = "ACK".toList then .IST else .NIST)
    (hmags : ∀ e ∈ h.s.list k, ∃ b1, IsBranch e.topvia b1 ∧ Magic b1)
    (hone : ∀ e ∈ h.s.list k, ∀ e' ∈ h.s.list k, IsBranch e.topvia b → IsBranch e'.topvia b →
      e.transactionid = e'.transactionid)
    (hsame : ∀ e ∈ h.s.list k, IsBranch e.topvia b → SameSentBy e.topvia v ∧
      (e.cseq.method = some m ∨ (m = "ACK".toList ∧ e.cseq.method = some "INVITE".toList)))
    {x : Option Entry} (hl : osip_find_transaction h.s { incoming := true, m := r } = some x) :
    h.osip_find_transaction { incoming := true, m := r } = some x := by
  have hi := hreach_inv hs
  have hreq : r.isRequest = true := by simp [Msg.isRequest, hr]
  have hsk : searchKind { incoming := true, m := r } = some k := by
    simp [searchKind, hm, hreq, hk]
  have htk : tableKind r = some k := by
    simp [tableKind, hsm, hreq, hk]
  have hkk : k = .IST ∨ k = .NIST := by
    rw [hk]; split
    · exact .inl rfl
    · exact .inr rfl
  refine find_agrees hs (evt := { incoming := true, m := r }) rfl hsk htk hv hb hone ?_ hl
  intro e he
  obtain ⟨req, hc⟩ := hi.stack.created k e he
  have hek : e.kind = .IST ∨ e.kind = .NIST := by rw [hc.kind]; exact hkk
  obtain ⟨b1, hb1, hm1⟩ := hmags e he
  obtain ⟨m1, hem⟩ := Option.isSome_iff_exists.1 hc.cseq_method
  simp only [listTest, hr, if_true]
  rw [c19_request_matching hek hv hm hem hb1 hb hm1 hmag]
  constructor
  · rintro ⟨rfl, _⟩
    exact hb1
  · intro hbe
    have heq : b1 = b := by
      have := ((branchValue_iff _ _).2 hb1).symm.trans ((branchValue_iff _ _).2 hbe)
      simpa using this
    obtain ⟨q1, q2⟩ := hsame e he hbe
    refine ⟨heq, q1, ?_⟩
    rw [hem] at q2
    simpa using q2

/-- The table searched for a message is the one of the list that is searched, and locked, for it, if a
request has the same method in its first line and in CSeq. -/
theorem c134_locked_partial {m : Msg} {k : Kind}
    (hs : searchKind { incoming := true, m } = some k)
    (hm : m.status_code = 0 → m.sip_method = m.cseq.bind (·.method)) : tableKind m = some k := by
  obtain ⟨c, hc⟩ := searchKind_some hs
  simp only at hc
  by_cases h0 : m.status_code = 0
  · have hreq : m.isRequest = true := by simp [Msg.isRequest, h0]
    have hsm := (hm h0).trans hc
    rw [← hs]
    simp [tableKind, searchKind, hsm, hc, hreq]
  · have hreq : m.isRequest = false := by simp [Msg.isRequest, h0]
    rw [← hs]
    simp [tableKind, searchKind, hc, hreq]

/-! ## Witnesses and examples -/

open Ex

theorem hstack_exists (ops : List HOp) {P : HStack → Prop} [DecidablePred P]
    (h : (({} : HStack).run ops).any (fun s => decide (P s)) = true) : ∃ s, HReach s ∧ P s := by
  cases hg : ({} : HStack).run ops with
  | none => simp [hg] at h
  | some s => exact ⟨s, ⟨ops, hg⟩, by simpa [hg] using h⟩

/-- The Via of another host that happens to use a branch in use. -/
def strangeVia : Via := { via "UDP" with host := some "10.9.9.9".toList }

/-- The id of the transaction a search finds. -/
def foundId (r : Option (Option Entry)) : Option (Option Int) := r.map (·.map (·.transactionid))

/-- **C134 does not hold.** With the tables, a response for REGISTER with the branch of an OPTIONS is
given to the transaction of the OPTIONS, and an INVITE of another host with the branch of a present one
is taken for a copy of that. A search of the lists finds no transaction in both cases. A request
without a Via makes the library read through a NULL pointer when the transaction cannot be created;
without the tables creation fails. -/
theorem c134_violated :
    (∃ h, HReach h ∧
      foundId (osip_find_transaction h.s ⟨true, response 200 "UDP" "REGISTER", 0⟩) = some none ∧
      foundId (h.osip_find_transaction ⟨true, response 200 "UDP" "REGISTER", 0⟩) = some (some 1)) ∧
    (∃ h, HReach h ∧
      foundId (osip_find_transaction h.s
        ⟨true, { request "UDP" "INVITE" with vias := [strangeVia] }, 0⟩) = some none ∧
      foundId (h.osip_find_transaction
        ⟨true, { request "UDP" "INVITE" with vias := [strangeVia] }, 0⟩) = some (some 1)) ∧
    (∃ m n1 n2, evtAllowed m = true ∧ ({} : HStack).step (.receive m n1 n2) = none ∧
      (({} : Stack).step (.receive m n1 n2)).isSome = true) := by
  refine ⟨?_, ?_, { request "UDP" "INVITE" with vias := [] }, t0, t0, by decide, ?_, by decide +kernel⟩
  · exact hstack_exists [.create ⟨false, request "UDP" "OPTIONS", 0⟩ t0 t0] (by decide +kernel)
  · exact hstack_exists [.receive (request "UDP" "INVITE") t0 t0] (by decide +kernel)
  · cases h : ({} : HStack).step (.receive { request "UDP" "INVITE" with vias := [] } t0 t0) with
    | none => rfl
    | some x =>
      have : (({} : HStack).step (.receive { request "UDP" "INVITE" with vias := [] } t0 t0)).isNone = true := by
        decide +kernel
      rw [h] at this
      cases this

/-- **The wrong table is searched for a request whose two methods differ.** An INVITE with OPTIONS in CSeq
is looked up while the list of the other server transactions is locked, but in the table of the INVITE
server transactions, and the transaction of the INVITE is found and given the event. By the lists there
is none. -/
theorem c134_locked_violated : ∃ h m, HReach h ∧ evtAllowed m = true ∧
    searchKind { incoming := true, m } = some .NIST ∧
    foundId (osip_find_transaction h.s { incoming := true, m }) = some none ∧
    (h.osip_find_transaction { incoming := true, m }).map (·.map (·.kind)) = some (some .IST) := by
  let m : Msg := { request "UDP" "INVITE" with cseq := (request "UDP" "OPTIONS").cseq }
  have h : ∃ h, HReach h ∧ evtAllowed m = true ∧ searchKind { incoming := true, m } = some .NIST ∧
      foundId (osip_find_transaction h.s { incoming := true, m }) = some none ∧
      (h.osip_find_transaction { incoming := true, m }).map (·.map (·.kind)) = some (some .IST) := by
    have := hstack_exists [.receive (request "UDP" "INVITE") t0 t0,
      .create ⟨true, { request "UDP" "OPTIONS" with vias := [otherVia] }, 0⟩ t0 t0]
      (P := fun h => foundId (osip_find_transaction h.s { incoming := true, m }) = some none ∧
        (h.osip_find_transaction { incoming := true, m }).map (·.map (·.kind)) = some (some .IST))
      (by decide +kernel)
    obtain ⟨h, h1, h2⟩ := this
    exact ⟨h, h1, by decide, by decide, h2⟩
  obtain ⟨h, h1⟩ := h
  exact ⟨h, m, h1⟩

/-- Two transactions with one branch, through `osip_create_transaction`: the table holds the first. When
the second is removed, the entry of the first goes with it; the first is still found, in the list. When
instead the first is removed twice, the second is still found. -/
example : (∃ h, HReach h ∧ h.s.ids = [1, 2] ∧ h.tab .IST = [("z9hG4bK776".toList, 1)] ∧
      foundId (h.osip_find_transaction ⟨true, request "UDP" "ACK", 0⟩) = some (some 1)) ∧
    (∃ h, HReach h ∧ h.s.ids = [1] ∧ h.tab .IST = [] ∧
      foundId (h.osip_find_transaction ⟨true, request "UDP" "ACK", 0⟩) = some (some 1)) ∧
    (∃ h, HReach h ∧ h.s.ids = [2] ∧ h.tab .IST = [] ∧
      foundId (h.osip_find_transaction ⟨true, request "UDP" "ACK", 0⟩) = some (some 2)) := by
  refine ⟨?_, ?_, ?_⟩
  · exact hstack_exists [.create ⟨true, request "UDP" "INVITE", 0⟩ t0 t0,
      .create ⟨true, request "UDP" "INVITE", 0⟩ t0 t0] (by decide +kernel)
  · exact hstack_exists [.create ⟨true, request "UDP" "INVITE", 0⟩ t0 t0,
      .create ⟨true, request "UDP" "INVITE", 0⟩ t0 t0, .remove .IST 2 (via "UDP")] (by decide +kernel)
  · exact hstack_exists [.create ⟨true, request "UDP" "INVITE", 0⟩ t0 t0,
      .create ⟨true, request "UDP" "INVITE", 0⟩ t0 t0, .remove .IST 1 (via "UDP"),
      .remove .IST 1 (via "UDP")] (by decide +kernel)

/-- The hypotheses of the agreement can be met: two INVITEs with different branches, an ACK for the
second, and a client transaction with its response. -/
example : ∃ h, HReach h ∧ h.s.ids = [1, 2, 3] ∧
    h.tab .IST = [("z9hG4bK777".toList, 2), ("z9hG4bK776".toList, 1)] ∧
    (h.s.ists.map fun e => (branchValue e.topvia, e.cseq.method)) =
      [(some "z9hG4bK776".toList, some "INVITE".toList),
       (some "z9hG4bK777".toList, some "INVITE".toList)] ∧
    foundId (h.osip_find_transaction ⟨true, { ack with vias := [otherVia] }, 0⟩) = some (some 2) ∧
    foundId (osip_find_transaction h.s ⟨true, { ack with vias := [otherVia] }, 0⟩) = some (some 2) ∧
    foundId (h.osip_find_transaction ⟨true, response 200 "UDP" "OPTIONS", 0⟩) = some (some 3) :=
  hstack_exists [.receive (request "UDP" "INVITE") t0 t0, .receive otherInvite t0 t0,
    .receive (request "UDP" "INVITE") t0 t0, .receive { ack with vias := [otherVia] } t0 t0,
    .create ⟨false, request "UDP" "OPTIONS", 0⟩ t0 t0] (by decide +kernel)

end Osip
