import Verif.Match.PropsDict

/-!
# C135: Everything proved about stacks holds with hash tables

A stack with tables goes through histories of a stack without them: what is delivered through a table
is something that happens to a transaction.
-/

set_option autoImplicit false

namespace Osip

/-! ## Lemmas -/

/-- The operation on a transaction that queueing an event is: `osip_transaction_add_event`
(osip_transaction.c:321-331) on a message that came in or is to go out. -/
def queueOp (evt : MsgEv) : Op := if evt.incoming then .incoming evt.m else .outgoing evt.m

theorem queueOp_step {e : Entry} {evt : MsgEv} (h : evtAllowed evt.m = true) :
    e.w.step (queueOp evt) = some (e.addEvent evt).w := by
  cases hi : evt.incoming
  · simp only [queueOp, hi, Bool.false_eq_true, if_false, World.step, h, if_true, Entry.addEvent,
      MsgEv.type]
  · simp only [queueOp, hi, World.step, h, if_true, Entry.addEvent, MsgEv.type]

theorem act_queue {evt : MsgEv} (h : evtAllowed evt.m = true) (id : Int) (l : List Entry) :
    actList id (queueOp evt) l = some (updateId l id (·.addEvent evt)) := by
  induction l with
  | nil => rfl
  | cons e es ih =>
    simp only [actList, ih, Option.bind_eq_bind, Option.bind_some, updateId, List.map_cons,
      queueOp_step h]
    split <;> rfl

theorem updateId_none {l : List Entry} {id : Int} {f : Entry → Entry}
    (h : ∀ e ∈ l, e.transactionid ≠ id) : updateId l id f = l := by
  unfold updateId
  induction l with
  | nil => rfl
  | cons e es ih =>
    simp only [List.map_cons, h e (by simp), if_false]
    rw [ih (fun x hx => h x (by simp [hx]))]

/-- Queueing an event on a transaction of the stack is something that happens to this transaction. -/
theorem queue_step {h : HStack} (hi : SInv h.s) {e : Entry} (he : e ∈ h.s.list e.kind) {evt : MsgEv}
    (ha : evtAllowed evt.m = true) :
    h.s.step (.act e.transactionid (queueOp evt)) = some (h.queue e evt).s := by
  have hno : ∀ k, k ≠ e.kind → updateId (h.s.list k) e.transactionid (·.addEvent evt) = h.s.list k :=
    fun k hk => updateId_none (fun x hx => hi.apart k e.kind hk x hx e he)
  have h1 := hno .ICT
  have h2 := hno .IST
  have h3 := hno .NICT
  have h4 := hno .NIST
  simp only [Stack.step, act_queue ha, Option.bind_eq_bind, Option.bind_some, Option.pure_def,
    Option.some.injEq, HStack.queue]
  cases hk : e.kind
  all_goals
    simp only [hk, ne_eq, not_true, not_false_eq_true, reduceCtorEq, forall_const, Stack.list] at h1 h2 h3 h4
    simp only [Stack.setList, Stack.list, h1, h2, h3, h4]

theorem kind_of_mem {s : Stack} (hi : SInv s) {k : Kind} {e : Entry} (he : e ∈ s.list k) :
    e ∈ s.list e.kind := by
  obtain ⟨req, hc⟩ := hi.created k e he
  rw [hc.kind]
  exact he

theorem list_find_mem {l : List Entry} {evt : MsgEv} {e : Entry}
    (h : Osip.osip_transaction_find l evt = some (some e)) : e ∈ l := by
  unfold osip_transaction_find at h
  repeat' split at h
  all_goals
    obtain ⟨a, c, h1, _⟩ := findM_some h
    rw [h1]; simp

/-- What is found is a transaction of the stack. -/
theorem found_mem {h : HStack} (hi : HInv h) {evt : MsgEv} {e : Entry}
    (hf : h.osip_find_transaction evt = some (some e)) : e ∈ h.s.list e.kind := by
  have key : ∃ k, e ∈ h.s.list k := by
    unfold HStack.osip_find_transaction at hf
    split at hf
    · simp at hf
    · simp only [Option.bind_eq_bind, Option.bind_eq_some_iff] at hf
      obtain ⟨k, _, hf⟩ := hf
      unfold HStack.osip_transaction_find at hf
      split at hf
      · simp at hf
      · split at hf
        · split at hf
          · simp at hf
          · split at hf
            · exact ⟨k, list_find_mem hf⟩
            · next b _ =>
              simp only [Option.bind_eq_bind, Option.bind_eq_some_iff] at hf
              obtain ⟨k', _, x, h1, h2⟩ := hf
              split at h2
              · next x' =>
                simp only [Option.pure_def, Option.some.injEq] at h2
                subst h2
                rcases lookup_some hi k' b with ⟨_, q⟩ | ⟨y, q, q1, _⟩
                · rw [q] at h1; simp at h1
                · rw [q] at h1
                  simp only [Option.some.injEq] at h1
                  exact ⟨k', h1 ▸ q1⟩
              · exact ⟨k, list_find_mem h2⟩
        · exact ⟨k, list_find_mem hf⟩
  obtain ⟨k, hk⟩ := key
  exact kind_of_mem hi.stack hk

theorem init_stack {h h' : HStack} {k : Kind} {m : Msg} {n1 n2 : TimeVal} {r : Option Entry}
    (hr : h.osip_transaction_init k m n1 n2 = some (h', r)) :
    Osip.osip_transaction_init h.s k m n1 n2 = some (h'.s, r) := by
  unfold HStack.osip_transaction_init at hr
  split at hr
  · cases hr
  · next heq =>
    simp only [Option.some.injEq, Prod.mk.injEq] at hr
    obtain ⟨rfl, rfl⟩ := hr
    exact heq
  · next heq =>
    repeat' split at hr
    all_goals first
      | cases hr; done
      | (simp only [Option.some.injEq, Prod.mk.injEq] at hr
         obtain ⟨rfl, rfl⟩ := hr
         exact heq)

theorem create_stack {h h' : HStack} {evt : MsgEv} {n1 n2 : TimeVal} {r : Option Entry}
    (hr : h.osip_create_transaction evt n1 n2 = some (h', r)) :
    Osip.osip_create_transaction h.s evt n1 n2 = some (h'.s, r) := by
  simp only [HStack.osip_create_transaction, Option.bind_eq_bind, Option.bind_eq_some_iff] at hr
  obtain ⟨c, h1, h2⟩ := hr
  simp only [Osip.osip_create_transaction, h1, Option.bind_eq_bind, Option.bind_some]
  split at h2
  · simp only [Option.pure_def, Option.some.injEq, Prod.mk.injEq] at h2
    obtain ⟨rfl, rfl⟩ := h2
    rfl
  · exact init_stack h2

theorem created_mem {s s' : Stack} {evt : MsgEv} {n1 n2 : TimeVal} {e : Entry} (hi : SInv s)
    (hr : Osip.osip_create_transaction s evt n1 n2 = some (s', some e)) : e ∈ s'.list e.kind := by
  refine kind_of_mem (hi.create hr) (k := e.kind) ?_
  rcases create_cases hr with ⟨_, h⟩ | ⟨k, _, h2⟩
  · cases h
  · rcases transaction_init_cases h2 with ⟨_, h⟩ | ⟨_, h⟩ | ⟨x, hx, _, hc, _, rfl⟩
    · cases h
    · cases h
    · simp only [Option.some.injEq] at hx
      subst hx
      rw [hc.kind]
      simp [list_setList]

theorem find_add_run {h h' : HStack} (hi : HInv h) {evt : MsgEv} {i : Int}
    (ha : evtAllowed evt.m = true)
    (hr : h.osip_find_transaction_and_add_event evt = some (h', i)) :
    ∃ ops, h.s.run ops = some h'.s := by
  simp only [HStack.osip_find_transaction_and_add_event, Option.bind_eq_bind,
    Option.bind_eq_some_iff] at hr
  obtain ⟨c, h1, h2⟩ := hr
  split at h2
  · simp only [Option.pure_def, Option.some.injEq, Prod.mk.injEq] at h2
    obtain ⟨rfl, _⟩ := h2
    exact ⟨[], rfl⟩
  · next e =>
    simp only [Option.pure_def, Option.some.injEq, Prod.mk.injEq] at h2
    obtain ⟨rfl, _⟩ := h2
    exact ⟨[.act e.transactionid (queueOp evt)], by
      simp [Stack.run, queue_step hi.stack (found_mem hi h1) ha]⟩

/-- What an operation does to the lists is done by operations without tables. -/
theorem hstep_run {h h' : HStack} (hi : HInv h) {o : HOp} (hs : h.step o = some h') :
    ∃ ops, h.s.run ops = some h'.s := by
  cases o with
  | receive m n1 n2 =>
    simp only [HStack.step, HStack.receive] at hs
    split at hs
    · simp only [Option.pure_def, Option.some.injEq] at hs
      exact ⟨[], by rw [hs]; rfl⟩
    · next ha =>
      simp only [Bool.not_eq_true, Bool.not_eq_false] at ha
      simp only [Option.bind_eq_bind, Option.bind_eq_some_iff, Prod.exists] at hs
      obtain ⟨h1, i, q1, q2⟩ := hs
      split at q2
      · simp only [Option.pure_def, Option.some.injEq] at q2
        subst q2
        exact find_add_run hi (evt := { incoming := true, m }) ha q1
      · simp only [Option.bind_eq_some_iff, Prod.exists] at q2
        obtain ⟨h2, r, q3, q4⟩ := q2
        have q5 := create_stack q3
        have hc : h.s.step (.create { incoming := true, m } n1 n2) = some h2.s := by
          simp [Stack.step, ha, q5]
        cases r with
        | none =>
          simp only [Option.pure_def, Option.some.injEq] at q4
          subst q4
          exact ⟨[.create { incoming := true, m } n1 n2], by simp [Stack.run, hc]⟩
        | some e =>
          simp only [Option.pure_def, Option.some.injEq] at q4
          subst q4
          refine ⟨[.create { incoming := true, m } n1 n2,
            .act e.transactionid (queueOp { incoming := true, m })], ?_⟩
          have := queue_step (h := h2) (hi.create q3).stack (created_mem hi.stack q5)
            (evt := { incoming := true, m }) ha
          simp [Stack.run, hc, this]
  | deliver evt =>
    simp only [HStack.step] at hs
    split at hs
    · next ha =>
      simp only [Option.map_eq_some_iff, Prod.exists] at hs
      obtain ⟨s1, i, h1, rfl⟩ := hs
      exact find_add_run hi ha h1
    · simp only [Option.some.injEq] at hs
      exact ⟨[], by rw [hs]; rfl⟩
  | create evt n1 n2 =>
    simp only [HStack.step] at hs
    split at hs
    · next ha =>
      simp only [Option.map_eq_some_iff, Prod.exists] at hs
      obtain ⟨s1, i, h1, rfl⟩ := hs
      exact ⟨[.create evt n1 n2], by simp [Stack.run, Stack.step, ha, create_stack h1]⟩
    · simp only [Option.some.injEq] at hs
      exact ⟨[], by rw [hs]; rfl⟩
  | remove k id v =>
    simp only [HStack.step, Option.some.injEq] at hs
    subst hs
    exact ⟨[.remove k id], rfl⟩
  | act id op =>
    simp only [HStack.step, Option.map_eq_some_iff] at hs
    obtain ⟨s', hs, rfl⟩ := hs
    exact ⟨[.act id op], by simp [Stack.run, hs]⟩

theorem HReach.run {h h' : HStack} {ops : List HOp} (hr : HReach h) (ho : h.run ops = some h') :
    HReach h' := by
  obtain ⟨a, ha⟩ := hr
  refine ⟨a ++ ops, ?_⟩
  have happ : ∀ (a b : List HOp) (x : HStack), x.run (a ++ b) = (x.run a).bind (·.run b) := by
    intro a b
    induction a with
    | nil => intro x; rfl
    | cons o os ih =>
      intro x
      simp only [List.cons_append, HStack.run, Option.bind_eq_bind]
      cases x.step o with
      | none => rfl
      | some y => simp [ih]
  rw [happ, ha]
  exact ho

theorem ids_of_advanced {a b : Stack} (h : Advanced a b) : b.ids = a.ids := by
  have h1 := h.ids .ICT
  have h2 := h.ids .IST
  have h3 := h.ids .NICT
  have h4 := h.ids .NIST
  simp only [Stack.list] at h1 h2 h3 h4
  simp only [Stack.ids, List.map_append, h1, h2, h3, h4]

/-- What is not found with tables is not found in the lists. -/
theorem notFound_lists {h : HStack} {evt : MsgEv} (hv : evt.m.vias ≠ [])
    (hf : h.osip_find_transaction evt = some none) : osip_find_transaction h.s evt = some none := by
  unfold HStack.osip_find_transaction at hf
  unfold osip_find_transaction
  split at hf
  · next hc => simp [hc]
  · next hc =>
    rw [if_neg hc]
    simp only [Option.bind_eq_bind, Option.bind_eq_some_iff] at hf
    obtain ⟨k, h1, hf⟩ := hf
    simp only [h1, Option.bind_eq_bind, Option.bind_some]
    unfold HStack.osip_transaction_find at hf
    split at hf
    · next he =>
      have : h.s.list k = [] := by simpa using he
      rw [this]
      unfold osip_transaction_find
      repeat' split
      all_goals rfl
    · split at hf
      · split at hf
        · next hvs => exact absurd hvs hv
        · split at hf
          · exact hf
          · simp only [Option.bind_eq_bind, Option.bind_eq_some_iff] at hf
            obtain ⟨k', _, x, _, h2⟩ := hf
            split at h2
            · simp at h2
            · exact h2
      · exact hf

/-- A message received with tables that creates a transaction is received as without tables. -/
theorem receive_stack {h h1 : HStack} {m : Msg} {n1 n2 : TimeVal} (hv : m.vias ≠ [])
    (hst : h.step (.receive m n1 n2) = some h1) :
    h1.s.ids = h.s.ids ∨ h.s.step (.receive m n1 n2) = some h1.s := by
  simp only [HStack.step, HStack.receive] at hst
  split at hst
  · simp only [Option.pure_def, Option.some.injEq] at hst
    exact .inl (by rw [hst])
  · next ha =>
    simp only [Bool.not_eq_true, Bool.not_eq_false] at ha
    simp only [HStack.osip_find_transaction_and_add_event, Option.bind_eq_bind,
      Option.bind_eq_some_iff, Option.pure_def] at hst
    obtain ⟨⟨h2, i⟩, ⟨r, hf, q1⟩, q2⟩ := hst
    cases r with
    | some y =>
      simp only [Option.some.injEq, Prod.mk.injEq] at q1
      obtain ⟨rfl, rfl⟩ := q1
      simp only [if_true, Option.some.injEq] at q2
      subst q2
      exact .inl (ids_of_advanced (advanced_addEvent _ _ _ ha))
    | none =>
      simp only [Option.some.injEq, Prod.mk.injEq] at q1
      obtain ⟨rfl, rfl⟩ := q1
      have hl := notFound_lists (evt := { incoming := true, m }) hv hf
      have hne : ¬ (OSIP_UNDEFINED_ERROR = OSIP_SUCCESS) := by decide
      simp only [if_neg hne, Option.bind_eq_some_iff, Prod.exists] at q2
      obtain ⟨h3, r, q3, q4⟩ := q2
      refine .inr ?_
      simp only [Stack.step, Stack.receive, ha, not_true, if_false,
        Osip.osip_find_transaction_and_add_event, hl, Option.bind_eq_bind, Option.bind_some,
        Option.pure_def, if_neg hne, create_stack q3]
      cases r with
      | none =>
        simp only [Option.some.injEq] at q4
        rw [q4]
      | some e =>
        simp only [Option.some.injEq] at q4
        rw [← q4]
        rfl

/-! ## The property -/

/-- **C135.** Whatever is done with a stack with tables could have been done with one without: between
any two states of its life, the lists go from the one to the other by the operations on stacks without
tables. -/
theorem c135_run {h h' : HStack} (hs : HReach h) {ops : List HOp} (hr : h.run ops = some h') :
    StackReach h.s ∧ ∃ sops, h.s.run sops = some h'.s := by
  have key : ∀ ops (a b : HStack), HInv a → a.run ops = some b → ∃ sops, a.s.run sops = some b.s := by
    intro ops
    induction ops with
    | nil => intro a b _ h; simp [HStack.run] at h; exact ⟨[], by rw [h]; rfl⟩
    | cons o os ih =>
      intro a b hi h
      simp only [HStack.run, Option.bind_eq_bind, Option.bind_eq_some_iff] at h
      obtain ⟨c, h1, h2⟩ := h
      obtain ⟨s1, q1⟩ := hstep_run hi h1
      obtain ⟨s2, q2⟩ := ih c b (hi.step h1) h2
      exact ⟨s1 ++ s2, by rw [Stack.run_append, q1]; exact q2⟩
  refine ⟨?_, key ops h h' (hreach_inv hs) hr⟩
  obtain ⟨a, ha⟩ := hs
  obtain ⟨s, hs⟩ := key a {} h HInv.empty ha
  exact ⟨s, hs⟩

/-- The ids of transactions are unique with tables too. -/
theorem c135_unique {h : HStack} (hs : HReach h) : h.s.ids.Nodup :=
  c17_unique (c135_run hs (ops := []) rfl).1

/-- **C135, copies.** A request whose top Via has a magic-cookie branch was
received and created a transaction (its id is new). As long as that transaction is alive, whatever else
happened, the same request is found to belong to a transaction of the stack, and receiving it again
creates none. (Other requests: see `c20_violated`.) -/
theorem c135_copy {h h1 h2 : HStack} (hs : HReach h) {m : Msg} {n1 n2 : TimeVal}
    (hst : h.step (.receive m n1 n2) = some h1) {k : Kind} {e e' : Entry} (he : e ∈ h1.s.list k)
    (hnew : e.transactionid ∉ h.s.ids) {ops : List HOp} (hr : h1.run ops = some h2)
    (he' : e' ∈ h2.s.list k) (hid : e'.transactionid = e.transactionid)
    {v : Via} {b : Str} (hv : m.vias.head? = some v) (hb : IsBranch v b) (hm : Magic b) :
    (∃ x, h2.osip_find_transaction { incoming := true, m } = some (some x) ∧
      ∃ k, x ∈ h2.s.list k) ∧
    ∀ n1 n2 h', h2.step (.receive m n1 n2) = some h' → h'.s.ids = h2.s.ids := by
  have hvs : m.vias ≠ [] := by intro h0; rw [h0] at hv; cases hv
  have hs1 : HReach h1 := hs.run (ops := [.receive m n1 n2]) (by simp [HStack.run, hst])
  have hs2 : HReach h2 := hs1.run hr
  obtain ⟨hr0, _⟩ := c135_run hs (ops := []) rfl
  have hstep : h.s.step (.receive m n1 n2) = some h1.s := by
    rcases receive_stack hvs hst with h0 | h0
    · refine absurd ?_ hnew
      rw [← h0]
      unfold Stack.ids
      rw [List.mem_map]
      refine ⟨e, ?_, rfl⟩
      cases k
      all_goals
        simp only [List.mem_append]
        simp only [Stack.list] at he
        simp [he]
    · exact h0
  obtain ⟨_, ha, _⟩ := receive_created hr0 hstep he hnew
  obtain ⟨_, sops, hsr⟩ := c135_run hs1 hr
  obtain ⟨⟨x, _, hf, _⟩, hrec⟩ := c20_retransmission_partial hr0 hstep he hnew hsr he' hid hv hb hm
  obtain ⟨r', q1, q2, _⟩ := c134_found_partial hs2 (evt := { incoming := true, m }) ha hf
  obtain ⟨y, rfl⟩ := Option.isSome_iff_exists.1 (q2 rfl)
  refine ⟨⟨y, q1, _, found_mem (hreach_inv hs2) q1⟩, ?_⟩
  intro a b h' h0
  rcases receive_stack hvs h0 with h3 | h3
  · exact h3
  · exact hrec a b h'.s h3

open Ex in
/-- A history in which the tables are used: an INVITE, its copy found through the table, a request of
its own, a removal. -/
example : ∃ h, HReach h ∧ StackReach h.s ∧ h.s.ids = [2] ∧ h.tab .IST = [("z9hG4bK777".toList, 2)] := by
  obtain ⟨h, h1, h2⟩ := hstack_exists [.receive (request "UDP" "INVITE") t0 t0,
    .receive (request "UDP" "INVITE") t0 t0, .receive otherInvite t0 t0, .remove .IST 1 (via "UDP")]
    (P := fun h => h.s.ids = [2] ∧ h.tab .IST = [("z9hG4bK777".toList, 2)]) (by decide +kernel)
  exact ⟨h, h1, (c135_run h1 (ops := []) rfl).1, h2⟩

open Ex in
/-- A copy of an INVITE: one transaction before and after, with two events queued in place of one. -/
example : (∃ h, HReach h ∧ h.s.ids = [1] ∧ h.s.ists.map (·.w.queue.length) = [1]) ∧
    (∃ h, HReach h ∧ h.s.ids = [1] ∧ h.s.ists.map (·.w.queue.length) = [2]) :=
  ⟨hstack_exists [.receive (request "UDP" "INVITE") t0 t0] (by decide +kernel),
   hstack_exists [.receive (request "UDP" "INVITE") t0 t0, .receive (request "UDP" "INVITE") t0 t0]
    (by decide +kernel)⟩

end Osip
