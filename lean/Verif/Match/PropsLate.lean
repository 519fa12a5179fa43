import Verif.Match.PropsRetrans
import Verif.Match.Examples
import Verif.Fsm.PropsLate

/-!
# C121: a late copy of a request is not a new request
-/

set_option autoImplicit false

namespace Osip

/-! ## What one operation on a stack does to one transaction -/

/-- The operations a transaction with the given id sees when the stack performs `o`: its own, or
possibly one message. -/
def Sees (id : Int) (o : SOp) (os : List Op) : Prop :=
  (∃ op, o = .act id op ∧ os = [op]) ∨
  ((∀ op, o ≠ .act id op) ∧ (os = [] ∨ ∃ m, os = [.incoming m] ∨ os = [.outgoing m]))

theorem sees_nothing {id : Int} {o : SOp} (h : ∀ op, o ≠ .act id op) : Sees id o [] :=
  .inr ⟨h, .inl rfl⟩

theorem addEvent_run {e : Entry} {evt : MsgEv} (h : evtAllowed evt.m = true) :
    ∃ os, (os = [.incoming evt.m] ∨ os = [.outgoing evt.m]) ∧ e.w.run os = some (e.addEvent evt).w := by
  cases hi : evt.incoming
  · refine ⟨[.outgoing evt.m], .inr rfl, ?_⟩
    simp only [World.run, World.step, h, if_true, Entry.addEvent, MsgEv.type, hi]
    rfl
  · refine ⟨[.incoming evt.m], .inl rfl, ?_⟩
    simp only [World.run, World.step, h, if_true, Entry.addEvent, MsgEv.type, hi]
    rfl

/-- Queueing a message on some transaction. -/
theorem entry_addEvent {s : Stack} {k k' : Kind} {id : Int} {evt : MsgEv}
    (ha : evtAllowed evt.m = true) {e : Entry} (he : e ∈ s.list k) {o : SOp}
    (ho : ∀ i op, o ≠ .act i op) :
    ∃ e' ∈ (s.setList k' (updateId (s.list k') id (·.addEvent evt))).list k, ∃ os,
      e'.transactionid = e.transactionid ∧ e.w.run os = some e'.w ∧ Sees e.transactionid o os := by
  rw [list_setList]
  split
  · next hk =>
    subst hk
    by_cases hid : e.transactionid = id
    · obtain ⟨os, h1, h2⟩ := addEvent_run (e := e) ha
      refine ⟨e.addEvent evt, ?_, os, rfl, h2, .inr ⟨ho _, .inr ⟨_, h1⟩⟩⟩
      exact List.mem_map.2 ⟨e, he, by rw [if_pos hid]⟩
    · exact ⟨e, List.mem_map.2 ⟨e, he, by rw [if_neg hid]⟩, [], rfl, rfl, sees_nothing (ho _)⟩
  · exact ⟨e, he, [], rfl, rfl, sees_nothing (ho _)⟩

theorem entry_remove {s : Stack} {k k' : Kind} {id : Int} {e : Entry} (he : e ∈ s.list k)
    (h : e.transactionid ≠ id) : e ∈ (osip_remove_transaction s k' id).1.list k := by
  unfold osip_remove_transaction
  split
  · next l hl =>
    obtain ⟨a, x, b, h1, rfl, h3, _⟩ := removeId_spec hl
    simp only [list_setList]
    split
    · next hk =>
      subst hk
      rw [h1] at he
      simp only [List.mem_append, List.mem_cons] at he ⊢
      rcases he with he | rfl | he
      · exact .inl he
      · exact absurd h3 h
      · exact .inr he
    · exact he
  · exact he

theorem entry_init {s s' : Stack} {k k' : Kind} {m : Msg} {n1 n2 : TimeVal} {r : Option Entry}
    (hi : osip_transaction_init s k' m n1 n2 = some (s', r)) {e : Entry} (he : e ∈ s.list k)
    (hlt : e.transactionid < s.transactionid) : e ∈ s'.list k := by
  have hcnt : e ∈ Stack.list { s with transactionid := s.transactionid + 1 } k := by
    cases k <;> exact he
  rcases transaction_init_cases hi with ⟨rfl, _⟩ | ⟨rfl, _⟩ | ⟨x, _, _, _, _, rfl⟩
  · exact he
  · exact entry_remove hcnt (by omega)
  · rw [list_setList]
    split
    · next hk => subst hk; exact List.mem_append_left _ he
    · exact hcnt

theorem entry_create {s s' : Stack} {k : Kind} {evt : MsgEv} {n1 n2 : TimeVal} {r : Option Entry}
    (hi : osip_create_transaction s evt n1 n2 = some (s', r)) {e : Entry} (he : e ∈ s.list k)
    (hlt : e.transactionid < s.transactionid) : e ∈ s'.list k := by
  rcases create_cases hi with ⟨rfl, _⟩ | ⟨k', _, h2⟩
  · exact he
  · exact entry_init h2 he hlt

theorem entry_act {id : Int} {op : Op} : ∀ {l l' : List Entry}, actList id op l = some l' →
    ∀ e ∈ l, ∃ e' ∈ l', ∃ os, e'.transactionid = e.transactionid ∧ e.w.run os = some e'.w ∧
      Sees e.transactionid (.act id op) os := by
  intro l
  induction l with
  | nil => intro l' _ e he; cases he
  | cons x xs ih =>
    intro l' h e he
    simp only [actList, Option.bind_eq_bind, Option.bind_eq_some_iff] at h
    obtain ⟨xs', h1, h2⟩ := h
    have hrest : e ∈ xs → ∀ y, ∃ e' ∈ y :: xs', ∃ os, e'.transactionid = e.transactionid ∧
        e.w.run os = some e'.w ∧ Sees e.transactionid (.act id op) os := by
      intro hm y
      obtain ⟨e', q1, q2⟩ := ih h1 e hm
      exact ⟨e', List.mem_cons_of_mem _ q1, q2⟩
    split at h2
    · next hid =>
      simp only [Option.bind_eq_some_iff, Option.pure_def, Option.some.injEq] at h2
      obtain ⟨w', hw, rfl⟩ := h2
      rcases List.mem_cons.1 he with rfl | he
      · refine ⟨_, List.mem_cons_self .., [op], rfl, ?_, .inl ⟨op, by rw [hid], rfl⟩⟩
        simp [World.run, hw]
      · exact hrest he _
    · next hid =>
      simp only [Option.pure_def, Option.some.injEq] at h2
      subst h2
      rcases List.mem_cons.1 he with rfl | he
      · refine ⟨e, List.mem_cons_self .., [], rfl, rfl, sees_nothing ?_⟩
        intro op' h
        simp only [SOp.act.injEq] at h
        exact hid h.1.symm
      · exact hrest he _

/-- A transaction stays in its list unless it is removed. -/
theorem entry_step {s s' : Stack} (hinv : SInv s) {o : SOp} (hs : s.step o = some s') {k : Kind}
    {e : Entry} (he : e ∈ s.list k) (hr : ∀ k', o ≠ .remove k' e.transactionid) :
    ∃ e' ∈ s'.list k, ∃ os, e'.transactionid = e.transactionid ∧ e.w.run os = some e'.w ∧
      Sees e.transactionid o os := by
  have hlt := hinv.below k e he
  have same : e ∈ s'.list k → (∀ op, o ≠ .act e.transactionid op) →
      ∃ e' ∈ s'.list k, ∃ os, e'.transactionid = e.transactionid ∧ e.w.run os = some e'.w ∧
        Sees e.transactionid o os := fun h ho => ⟨e, h, [], rfl, rfl, sees_nothing ho⟩
  cases o with
  | receive m n1 n2 =>
    rcases receive_cases hs with rfl | ⟨ha, ⟨i, h1⟩ | ⟨_, h1 | ⟨s1, x, h1, rfl⟩⟩⟩
    · exact same he (by simp)
    · rcases find_add_cases h1 with ⟨_, rfl, _⟩ | ⟨x, _, _, rfl⟩
      · exact same he (by simp)
      · exact entry_addEvent (evt := { incoming := true, m }) ha he (by simp)
    · exact same (entry_create h1 he hlt) (by simp)
    · exact entry_addEvent (evt := { incoming := true, m }) ha (entry_create h1 he hlt) (by simp)
  | deliver evt =>
    simp only [Stack.step] at hs
    split at hs
    · next ha =>
      simp only [Option.map_eq_some_iff, Prod.exists] at hs
      obtain ⟨s1, i, h1, rfl⟩ := hs
      rcases find_add_cases h1 with ⟨_, rfl, _⟩ | ⟨x, _, _, rfl⟩
      · exact same he (by simp)
      · exact entry_addEvent ha he (by simp)
    · simp only [Option.some.injEq] at hs; subst hs; exact same he (by simp)
  | create evt n1 n2 =>
    simp only [Stack.step] at hs
    split at hs
    · simp only [Option.map_eq_some_iff, Prod.exists] at hs
      obtain ⟨s1, i, h1, rfl⟩ := hs
      exact same (entry_create h1 he hlt) (by simp)
    · simp only [Option.some.injEq] at hs; subst hs; exact same he (by simp)
  | remove k' id =>
    simp only [Stack.step, Option.some.injEq] at hs
    subst hs
    exact same (entry_remove he (fun h => hr k' (by rw [h]))) (by simp)
  | act id op =>
    simp only [Stack.step, Option.bind_eq_bind, Option.bind_eq_some_iff, Option.pure_def,
      Option.some.injEq] at hs
    obtain ⟨a, ha, b, hb, c, hc, d, hd, rfl⟩ := hs
    cases k
    · exact entry_act ha e he
    · exact entry_act hb e he
    · exact entry_act hc e he
    · exact entry_act hd e he

/-- A transaction made by `osip_transaction_init` has seen nothing yet. -/
theorem init_world {s s' : Stack} {k : Kind} {m : Msg} {n1 n2 : TimeVal} {e : Entry}
    (h : osip_transaction_init s k m n1 n2 = some (s', some e)) :
    ∃ t, transactionInit k n1 n2 m = some (.ok t) ∧ e.w = World.init t := by
  unfold osip_transaction_init at h
  split at h
  · simp at h
  split at h
  · simp at h
  split at h
  · cases h
  simp only at h
  split at h
  · simp at h
  split at h
  · split at h
    · cases h
    · simp at h
    · next t ht =>
      simp only [Option.some.injEq, Prod.mk.injEq] at h
      exact ⟨t, ht, by rw [← h.2]⟩
  · simp at h

theorem mem_ids {s : Stack} {k : Kind} {e : Entry} (h : e ∈ s.list k) : e.transactionid ∈ s.ids := by
  unfold Stack.ids
  rw [List.mem_map]
  refine ⟨e, ?_, rfl⟩
  cases k
  all_goals
    simp only [List.mem_append]
    simp only [Stack.list] at h
    simp [h]

/-- A transaction created for a received message has seen just that message. -/
theorem receive_world {s s1 : Stack} (hs : StackReach s) {m : Msg} {n1 n2 : TimeVal}
    (h1 : s.step (.receive m n1 n2) = some s1) {k : Kind} {e : Entry} (he : e ∈ s1.list k)
    (hnew : e.transactionid ∉ s.ids) :
    ∃ t, transactionInit k n1 n2 m = some (.ok t) ∧
      (World.init t).run [.incoming m] = some e.w := by
  obtain ⟨hc, _, _, _, _⟩ := receive_created hs h1 he hnew
  have hnotadv : ∀ {x : Stack}, Advanced s x → e ∈ x.list k → False := by
    intro x hx hex
    obtain ⟨e0, h0, h2⟩ := mem_id_of_ids (hx.ids k) hex
    exact hnew (h2 ▸ mem_ids h0)
  rcases receive_cases h1 with rfl | ⟨ha, ⟨i, h2⟩ | ⟨hn, h2 | ⟨s2, e2, h2, rfl⟩⟩⟩
  · exact absurd (mem_ids he) hnew
  · exact (hnotadv (find_add_advanced (evt := { incoming := true, m }) ha h2) he).elim
  · exfalso
    rcases create_cases h2 with ⟨rfl, _⟩ | ⟨k', hk', h3⟩
    · exact hnew (mem_ids he)
    · rcases transaction_init_cases h3 with ⟨rfl, _⟩ | ⟨rfl, _⟩ | ⟨x, hx, _⟩
      · exact hnew (mem_ids he)
      · have hmem : e ∈ s.list k := by
          unfold osip_remove_transaction at he
          have hr : removeId s.transactionid (s.list k') = none := removeId_none.2 (by
            intro y hy
            have := (stackReach_sinv hs).below k' y hy
            omega)
          have : Stack.list { s with transactionid := s.transactionid + 1 } k' = s.list k' := by
            cases k' <;> rfl
          rw [this, hr] at he
          cases k <;> exact he
        exact hnew (mem_ids hmem)
      · cases hx
  · rcases create_cases h2 with ⟨_, h⟩ | ⟨k', hk', h3⟩
    · cases h
    obtain ⟨t, ht, hw⟩ := init_world h3
    rcases transaction_init_cases h3 with ⟨_, h⟩ | ⟨_, h⟩ | ⟨x, hx, hid, hcx, _, rfl⟩
    · cases h
    · cases h
    cases hx
    have hkind := hcx.kind
    subst hkind
    simp only [list_setList_self] at he
    rw [list_setList] at he
    split at he
    · next hk =>
      subst hk
      obtain ⟨y, hy, hye⟩ := List.mem_map.1 he
      rcases List.mem_append.1 hy with hy | hy
      · exfalso
        refine hnew ?_
        have := mem_ids hy
        split at hye <;> rw [← hye] <;> exact this
      · rw [List.mem_singleton] at hy
        subst hy
        rw [if_pos rfl] at hye
        refine ⟨t, ht, ?_⟩
        rw [← hye, ← hw]
        simp only [World.run, World.step, ha, if_true, Entry.addEvent, MsgEv.type]
        rfl
    · next hk =>
      exfalso
      rw [list_setList, if_neg hk] at he
      exact hnew (mem_ids (k := k) (by cases k <;> exact he))

/-! ## Following one transaction through a run -/

/-- From stack `s` to stack `s'` by `ops`, the transaction of kind `k` with the given id saw `os`,
which took it from `w` to `w'`. -/
inductive Accompanies (k : Kind) (id : Int) (s : Stack) (w : World) :
    List SOp → List Op → Stack → World → Prop
  | nil : Accompanies k id s w [] [] s w
  | snoc {a : List SOp} {b os : List Op} {s' s2 : Stack} {w' w2 : World} {o : SOp}
      (h : Accompanies k id s w a b s' w') (hs : s'.step o = some s2)
      (hm : ∃ e ∈ s2.list k, e.transactionid = id ∧ e.w = w2) (hr : w'.run os = some w2)
      (hsee : Sees id o os) : Accompanies k id s w (a ++ [o]) (b ++ os) s2 w2

theorem stack_run_snoc {s s' s2 : Stack} {a : List SOp} {o : SOp} (h : s.run a = some s')
    (hs : s'.step o = some s2) : s.run (a ++ [o]) = some s2 := by
  rw [Stack.run_append, h]
  simp [Stack.run, hs]

theorem Accompanies.stack {k : Kind} {id : Int} {s s' : Stack} {w w' : World} {a : List SOp}
    {b : List Op} (h : Accompanies k id s w a b s' w') : s.run a = some s' := by
  induction h with
  | nil => rfl
  | snoc h hs _ _ _ ih => exact stack_run_snoc ih hs

theorem Accompanies.world {k : Kind} {id : Int} {s s' : Stack} {w w' : World} {a : List SOp}
    {b : List Op} (h : Accompanies k id s w a b s' w') : w.run b = some w' := by
  induction h with
  | nil => rfl
  | snoc h hs _ hr _ ih => rw [World.run_append, ih]; exact hr

theorem Accompanies.mem {k : Kind} {id : Int} {s s' : Stack} {w w' : World} {a : List SOp}
    {b : List Op} (h : Accompanies k id s w a b s' w')
    (h0 : ∃ e ∈ s.list k, e.transactionid = id ∧ e.w = w) :
    ∃ e ∈ s'.list k, e.transactionid = id ∧ e.w = w' := by
  cases h with
  | nil => exact h0
  | snoc h hs hm _ _ => exact hm

theorem Accompanies.sees {k : Kind} {id : Int} {s s' : Stack} {w w' : World} {a : List SOp}
    {b : List Op} (h : Accompanies k id s w a b s' w') :
    ∀ op ∈ b, .act id op ∈ a ∨ ∃ m, op = .incoming m ∨ op = .outgoing m := by
  induction h with
  | nil => intro _ h; cases h
  | snoc h hs _ hr hsee ih =>
    intro op hop
    rcases List.mem_append.1 hop with hop | hop
    · rcases ih op hop with h | h
      · exact .inl (List.mem_append_left _ h)
      · exact .inr h
    · rcases hsee with ⟨op', rfl, rfl⟩ | ⟨_, rfl | ⟨m, rfl | rfl⟩⟩
      · simp only [List.mem_singleton] at hop
        subst hop
        exact .inl (by simp)
      · cases hop
      · exact .inr ⟨m, .inl (by simpa using hop)⟩
      · exact .inr ⟨m, .inr (by simpa using hop)⟩

/-- The readings of the clock while the stack works on the transaction with an id. -/
def SOp.readings (id : Int) : SOp → List TimeVal
  | .act i op => if i = id then op.readings else []
  | _ => []

theorem sees_readings {id : Int} {o : SOp} {os : List Op} (h : Sees id o os) :
    os.flatMap Op.readings = o.readings id := by
  rcases h with ⟨op, rfl, rfl⟩ | ⟨h, h2⟩
  · simp [SOp.readings]
  · have : o.readings id = [] := by
      cases o with
      | act i op =>
        simp only [SOp.readings]
        rw [if_neg]
        intro hi
        exact h op (by rw [hi])
      | _ => rfl
    rw [this]
    rcases h2 with rfl | ⟨m, rfl | rfl⟩ <;> rfl

theorem Accompanies.readings {k : Kind} {id : Int} {s s' : Stack} {w w' : World} {a : List SOp}
    {b : List Op} (h : Accompanies k id s w a b s' w') :
    b.flatMap Op.readings = a.flatMap (SOp.readings id) := by
  induction h with
  | nil => rfl
  | snoc h hs _ hr hsee ih =>
    rw [List.flatMap_append, List.flatMap_append, ih, sees_readings hsee]
    simp

/-- An operation of the transaction that reads the clock is one of the stack. -/
theorem Accompanies.split {k : Kind} {id : Int} {s s' : Stack} {w w' : World} {a : List SOp}
    {b : List Op} (h : Accompanies k id s w a b s' w') : ∀ {p q : List Op} {op : Op},
    b = p ++ op :: q → op.readings ≠ [] →
    ∃ a1 a2 s1 s2 w1 w2, a = a1 ++ .act id op :: a2 ∧ Accompanies k id s w a1 p s1 w1 ∧
      s1.step (.act id op) = some s2 ∧ w1.step op = some w2 ∧
      (∃ e ∈ s2.list k, e.transactionid = id ∧ e.w = w2) ∧
      ∀ t, Op.tick t ∈ q → SOp.act id (.tick t) ∈ a2 := by
  induction h with
  | nil => intro p q op hb; have := congrArg List.length hb; simp at this
  | @snoc a b os s' s2 w' w2 o h hs hm hr hsee ih =>
    intro p q op hb hop
    have more : ∀ q', b = p ++ op :: q' → q = q' ++ os → 
        ∃ a1 a2 s1 s2 w1 w2, a ++ [o] = a1 ++ .act id op :: a2 ∧ Accompanies k id s w a1 p s1 w1 ∧
        s1.step (.act id op) = some s2 ∧ w1.step op = some w2 ∧
        (∃ e ∈ s2.list k, e.transactionid = id ∧ e.w = w2) ∧
        ∀ t, Op.tick t ∈ q → SOp.act id (.tick t) ∈ a2 := by
      intro q' h1 h2
      obtain ⟨a1, a2, x1, x2, y1, y2, rfl, g1, g2, g3, g4, g5⟩ := ih h1 hop
      refine ⟨a1, a2 ++ [o], x1, x2, y1, y2, by simp, g1, g2, g3, g4, ?_⟩
      intro t ht
      rw [h2] at ht
      rcases List.mem_append.1 ht with ht | ht
      · exact List.mem_append_left _ (g5 t ht)
      · refine List.mem_append_right _ ?_
        rcases hsee with ⟨op', rfl, rfl⟩ | ⟨_, rfl | ⟨m, rfl | rfl⟩⟩ <;> simp at ht
        rw [← ht]
        simp
    rcases hsee with ⟨op', rfl, rfl⟩ | ⟨ho, rfl | ⟨m, hos⟩⟩
    · rcases List.eq_nil_or_concat q with rfl | ⟨q', y, rfl⟩
      · have hb' : b ++ [op'] = p ++ [op] := hb
        obtain ⟨h1, h2⟩ := List.append_inj' hb' rfl
        cases h2
        subst h1
        refine ⟨a, [], s', s2, w', w2, rfl, h, hs, ?_, hm, by simp⟩
        simpa [World.run] using hr
      · rw [List.concat_eq_append] at hb ⊢
        have hb' : b ++ [op'] = (p ++ op :: q') ++ [y] := by rw [hb]; simp
        obtain ⟨h1, h2⟩ := List.append_inj' hb' rfl
        cases h2
        have := more q' h1
        rw [List.concat_eq_append] at this
        exact this rfl
    · exact more q (by simpa using hb) (by simp)
    · have hlast : ∃ y, os = [y] ∧ y.readings = [] := by
        rcases hos with rfl | rfl
        · exact ⟨_, rfl, rfl⟩
        · exact ⟨_, rfl, rfl⟩
      obtain ⟨y, hy, hyr⟩ := hlast
      rw [hy] at hb
      rcases List.eq_nil_or_concat q with rfl | ⟨q', z, rfl⟩
      · obtain ⟨h1, h2⟩ := List.append_inj' (s₁ := b) (t₁ := [y]) (s₂ := p) (t₂ := [op]) hb rfl
        cases h2
        exact absurd hyr hop
      · rw [List.concat_eq_append] at hb
        have hb' : b ++ [y] = (p ++ op :: q') ++ [z] := by rw [hb]; simp
        obtain ⟨h1, h2⟩ := List.append_inj' hb' rfl
        cases h2
        refine more q' h1 ?_
        rw [List.concat_eq_append, hy]

/-! ## The property -/

/-- How the program treats the transaction of kind `k` with the given id during `ops`, from stack
`s` on: it removes it only when it has ended; timer events come from the timer loop only; the clock
is not set back; no transport error is reported; it answers an INVITE with no 2xx response; and when
the transaction entered a waiting state, its timers are not run later than the waiting period of RFC
3261 after that moment. -/
structure Gently (k : Kind) (id : Int) (s : Stack) (ops : List SOp) : Prop where
  removed : ∀ a k' c sa, ops = a ++ .remove k' id :: c → s.run a = some sa →
    ∀ x ∈ sa.list k, x.transactionid = id → x.w.tr.state.isTerminated = true
  timers : ∀ op, .act id op ∈ ops → ∀ t, op ≠ .timer t
  clock : ClockRuns (ops.flatMap (SOp.readings id))
  errors : ∀ a c sa, ops = a ++ c → s.run a = some sa →
    ∀ x ∈ sa.list k, x.transactionid = id → NoTransportError x.w
  answers : k = .IST → ∀ a c sa, ops = a ++ c → s.run a = some sa →
    ∀ x ∈ sa.list k, x.transactionid = id → ∀ d ∈ x.w.log, d.ev.type ≠ .SND_STATUS_2XX
  polled : ∀ a send m1 m2 c sa sb, ops = a ++ .act id (.exec send m1 m2) :: c →
    s.run a = some sa → sa.step (.act id (.exec send m1 m2)) = some sb →
    ∀ x ∈ sa.list k, ∀ y ∈ sb.list k, x.transactionid = id → y.transactionid = id →
    y.w.tr.state ≠ x.w.tr.state → ∀ timer ms, waitOf false y.w.tr.state = some (timer, ms) →
    ∀ t, .act id (.tick t) ∈ c → t.micros ≤ m1.micros + ms * 1000

theorem terminated_iff {k : Kind} {w : World} (h : Reach k w) :
    w.tr.state.isTerminated = true → w.tr.state = terminatedOf k := by
  refine reach_inv (P := fun t _ => t.state.isTerminated = true → t.state = terminatedOf k)
    ?_ ?_ ?_ h
  · intro n1 n2 req t hi ht
    rw [(init_shape hi).2.2.2.2] at ht
    cases k <;> cases ht
  · intro _ _ _ h
    exact h
  · intro env t tr ev t' e r hp hk _ he
    cases k
    all_goals
      fsm_exec he hk hs ht
      all_goals first
        | exact hp
        | (intro _; rfl)
        | (intro h; cases h)
        | (intro h; simp [State.isTerminated, hs] at h)

theorem gently_follows {s s1 : Stack} (hs : StackReach s) {m : Msg} {n1 n2 : TimeVal}
    (h1 : s.step (.receive m n1 n2) = some s1) {k : Kind} (hk : k = .IST ∨ k = .NIST) {e : Entry}
    (he : e ∈ s1.list k) (hnew : e.transactionid ∉ s.ids) (hu : Unreliable m) {ops : List SOp}
    (hg : Gently k e.transactionid s1 ops) : ∀ {a c : List SOp} {s2 : Stack}, ops = a ++ c →
    s1.run a = some s2 → ∃ b w, Accompanies k e.transactionid s1 e.w a b s2 w ∧
      w.tr.state ≠ terminatedOf k := by
  obtain ⟨t, ht, hw0⟩ := receive_world hs h1 he hnew
  have hs1 := hs.step h1
  -- while it is followed, it has not ended
  have alive : ∀ {a c : List SOp} {b : List Op} {s2 : Stack} {w : World}, ops = a ++ c →
      Accompanies k e.transactionid s1 e.w a b s2 w → w.tr.state ≠ terminatedOf k := by
    intro a c b s2 w hops hf
    obtain ⟨e2, q1, q2, q3⟩ := hf.mem ⟨e, he, rfl, rfl⟩
    have hrun : (World.init t).run (.incoming m :: b) = some w := by
      have : Op.incoming m :: b = [.incoming m] ++ b := rfl
      rw [this, World.run_append, hw0]
      exact hf.world
    refine c121_alive hk hu ht hrun ?_ ?_ ?_ ?_ ?_
    · intro o ho
      rcases List.mem_cons.1 ho with rfl | ho
      · intro t h; cases h
      · rcases hf.sees o ho with h | ⟨m', rfl | rfl⟩
        · exact hg.timers o (by rw [hops]; exact List.mem_append_left _ h)
        · intro t h; cases h
        · intro t h; cases h
    · have hc := hg.clock
      rw [hops, List.flatMap_append] at hc
      rw [List.flatMap_cons, hf.readings]
      refine ⟨fun t ht => hc.1 t (List.mem_append_left _ ht), ?_⟩
      exact (List.pairwise_append.1 hc.2).1
    · rw [← q3]
      exact hg.errors a c s2 hops hf.stack e2 q1 q2
    · intro p send m1 m2 r tt z wa wb hsplit hra hst hne x ms hwait
      cases p with
      | nil => cases hsplit
      | cons p0 p =>
        simp only [List.cons_append, List.cons.injEq] at hsplit
        obtain ⟨rfl, hsplit⟩ := hsplit
        obtain ⟨a1, a2, x1, x2, y1, y2, rfl, g1, g2, g3, ⟨ey, g4, g5, g6⟩, g7⟩ :=
          hf.split hsplit (by simp [Op.readings])
        have hwa : y1 = wa := by
          have h2 := g1.world
          have : Op.incoming m :: p = [.incoming m] ++ p := rfl
          rw [this, World.run_append, hw0] at hra
          simp only [Option.bind_some, h2, Option.some.injEq] at hra
          exact hra
        subst hwa
        rw [hst] at g3
        cases g3
        obtain ⟨ex, f1, f2, f3⟩ := g1.mem ⟨e, he, rfl, rfl⟩
        refine hg.polled a1 send m1 m2 (a2 ++ c) x1 x2 (by rw [hops]; simp) g1.stack g2 ex f1 ey g4
          f2 g5 (by rw [f3, g6]; exact hne) x ms (by rw [g6]; exact hwait) tt ?_
        exact List.mem_append_left _ (g7 tt (by simp))
    · intro hi d hd
      rw [← q3] at hd
      exact hg.answers hi a c s2 hops hf.stack e2 q1 q2 d hd
  -- so it is followed all the way
  have all : ∀ (n : Nat) {a c : List SOp} {s2 : Stack}, a.length = n → ops = a ++ c →
      s1.run a = some s2 → ∃ b w, Accompanies k e.transactionid s1 e.w a b s2 w := by
    intro n
    induction n with
    | zero =>
      intro a c s2 hn _ hr
      rw [List.length_eq_zero_iff] at hn
      subst hn
      simp only [Stack.run, Option.some.injEq] at hr
      subst hr
      exact ⟨[], e.w, .nil⟩
    | succ n ih =>
      intro a c s2 hn hops hr
      rcases List.eq_nil_or_concat a with rfl | ⟨a', o, rfl⟩
      · cases hn
      rw [List.concat_eq_append] at hn hops hr ⊢
      rw [Stack.run_append] at hr
      simp only [Option.bind_eq_some_iff] at hr
      obtain ⟨sa, hra, hro⟩ := hr
      simp only [Stack.run, Option.bind_eq_bind, Option.bind_eq_some_iff, Option.some.injEq] at hro
      obtain ⟨s2', hst, rfl⟩ := hro
      obtain ⟨b, w, hf⟩ := ih (a := a') (c := o :: c) (by simpa using hn) (by rw [hops]; simp) hra
      have hal := alive (c := o :: c) (by rw [hops]; simp) hf
      obtain ⟨ea, q1, q2, q3⟩ := hf.mem ⟨e, he, rfl, rfl⟩
      have hsa := stackReach_sinv (hs1.run hra)
      have hnr : ∀ k', o ≠ .remove k' ea.transactionid := by
        rintro k' rfl
        rw [q2] at hops
        have := hg.removed a' k' c sa (by rw [hops]; simp) hra ea q1 q2
        obtain ⟨req, hc⟩ := hsa.created k ea q1
        exact hal (q3 ▸ terminated_iff hc.reach.reach this)
      obtain ⟨e', p1, os, p2, p3, p4⟩ := entry_step hsa hst q1 hnr
      refine ⟨b ++ os, e'.w, .snoc hf hst ⟨e', p1, by omega, rfl⟩ (q3 ▸ p3) (q2 ▸ p4)⟩
  intro a c s2 hops hr
  obtain ⟨b, w, hf⟩ := all a.length rfl hops hr
  exact ⟨b, w, hf, alive hops hf⟩

/-- **C121 (copies).** A request with a magic-cookie branch came over an unreliable transport and
created a server transaction. While the program treats the transaction gently - in particular runs
its timers only within 32 s after a final response, or 5 s after the ACK - the transaction is there,
a copy of the request is found to belong to it or to an older transaction, and receiving the copy
creates no transaction. -/
theorem c121_copy_partial {s s1 s2 : Stack} (hs : StackReach s) {m : Msg} {n1 n2 : TimeVal}
    (h1 : s.step (.receive m n1 n2) = some s1) {k : Kind} {e : Entry} (he : e ∈ s1.list k)
    (hnew : e.transactionid ∉ s.ids) (hu : Unreliable m) {v : Via} {b : Str}
    (hv : m.vias.head? = some v) (hb : IsBranch v b) (hm : Magic b) {ops : List SOp}
    (hg : Gently k e.transactionid s1 ops) (h2 : s1.run ops = some s2) :
    (∃ e' ∈ s2.list k, e'.transactionid = e.transactionid ∧
      e'.w.tr.state.isTerminated = false) ∧
    Recognised s2 m k e.transactionid := by
  obtain ⟨hc, ha, hq, hack, hkk⟩ := receive_created hs h1 he hnew
  have hk := server_of_search hq hkk
  obtain ⟨b', w, hf, hal⟩ := gently_follows hs h1 hk he hnew hu hg (List.append_nil ops).symm h2
  obtain ⟨e', q1, q2, q3⟩ := hf.mem ⟨e, he, rfl, rfl⟩
  refine ⟨⟨e', q1, q2, ?_⟩, c20_retransmission_partial hs h1 he hnew h2 q1 q2 hv hb hm⟩
  obtain ⟨req, hc'⟩ := (stackReach_sinv ((hs.step h1).run h2)).created k e' q1
  cases ht : e'.w.tr.state.isTerminated
  · rfl
  · exact absurd (q3 ▸ terminated_iff hc'.reach.reach ht) hal

/-! ## Concrete runs -/

namespace Ex

/-- A check of `Gently` for concrete runs, apart from the clock. -/
def gentlyHere (k : Kind) (id : Int) (s : Stack) : Bool :=
  (s.list k).all fun x => x.transactionid != id || (x.w.trace.all (!·.isTpErr) &&
    (k != .IST || x.w.log.all (·.ev.type != .SND_STATUS_2XX)))

def polledBy (id : Int) (until_ : Int) : SOp → Bool
  | .act i (.tick t) => i != id || decide (t.micros ≤ until_)
  | _ => true

def gentlyNext (k : Kind) (id : Int) (s : Stack) (os : List SOp) : SOp → Bool
  | .remove _ i => i != id || (s.list k).all fun x => x.transactionid != id ||
      x.w.tr.state.isTerminated
  | .act i (.exec send m1 m2) => i != id ||
      match s.step (.act i (.exec send m1 m2)) with
      | none => true
      | some s' => (s.list k).all fun x => (s'.list k).all fun y => x.transactionid != id ||
          y.transactionid != id || y.w.tr.state == x.w.tr.state ||
          match waitOf false y.w.tr.state with
          | none => true
          | some (_, ms) => os.all (polledBy id (m1.micros + ms * 1000))
  | .act i (.timer _) => i != id
  | _ => true

def gentlyB (k : Kind) (id : Int) : Stack → List SOp → Bool
  | s, [] => gentlyHere k id s
  | s, o :: os => gentlyHere k id s && gentlyNext k id s os o &&
      match s.step o with
      | none => true
      | some s' => gentlyB k id s' os

theorem gentlyB_at {k : Kind} {id : Int} : ∀ {a c : List SOp} {s sa : Stack},
    gentlyB k id s (a ++ c) = true → s.run a = some sa → gentlyB k id sa c = true := by
  intro a
  induction a with
  | nil => intro c s sa h hr; simp only [Stack.run, Option.some.injEq] at hr; exact hr ▸ h
  | cons o os ih =>
    intro c s sa h hr
    simp only [Stack.run, Option.bind_eq_bind, Option.bind_eq_some_iff] at hr
    obtain ⟨s1, h1, h2⟩ := hr
    simp only [List.cons_append, gentlyB, h1, Bool.and_eq_true] at h
    exact ih h.2 h2

theorem gentlyB_here {k : Kind} {id : Int} {s : Stack} {c : List SOp}
    (h : gentlyB k id s c = true) : gentlyHere k id s = true := by
  cases c with
  | nil => exact h
  | cons o os => simp only [gentlyB, Bool.and_eq_true] at h; exact h.1.1

theorem gently_of {k : Kind} {id : Int} {s : Stack} {ops : List SOp}
    (h : gentlyB k id s ops = true) (hr : (s.run ops).isSome = true)
    (hc : ClockRuns (ops.flatMap (SOp.readings id))) : Gently k id s ops where
  clock := hc
  removed := by
    rintro a k' c sa rfl hra x hx hid
    have := gentlyB_at h hra
    simp only [gentlyB, gentlyNext, Bool.and_eq_true, bne_self_eq_false, Bool.false_or,
      List.all_eq_true] at this
    simpa [hid] using this.1.2 x hx
  timers := by
    rintro op hop t rfl
    obtain ⟨a, c, rfl⟩ := List.append_of_mem hop
    rw [Stack.run_append] at hr
    cases hra : s.run a with
    | none => simp [hra] at hr
    | some sa =>
      have := gentlyB_at h hra
      simp [gentlyB, gentlyNext] at this
  errors := by
    rintro a c sa rfl hra x hx hid y hy
    have := gentlyB_here (gentlyB_at h hra)
    simp only [gentlyHere, List.all_eq_true] at this
    have := this x hx
    simp only [hid, bne_self_eq_false, Bool.false_or, Bool.and_eq_true, List.all_eq_true] at this
    simpa using this.1 y hy
  answers := by
    rintro rfl a c sa rfl hra x hx hid d hd
    have := gentlyB_here (gentlyB_at h hra)
    simp only [gentlyHere, List.all_eq_true] at this
    have := this x hx
    simp only [hid, bne_self_eq_false, Bool.false_or, Bool.and_eq_true, List.all_eq_true] at this
    simpa using this.2 d hd
  polled := by
    rintro a send m1 m2 c sa sb rfl hra hst x hx y hy hxi hyi hne timer ms hw t ht
    have := gentlyB_at h hra
    simp only [gentlyB, gentlyNext, hst, Bool.and_eq_true, bne_self_eq_false, Bool.false_or,
      List.all_eq_true] at this
    have := this.1.2 x hx y hy
    simp only [hxi, hyi, bne_self_eq_false, Bool.false_or, hw, Bool.or_eq_true, beq_iff_eq,
      List.all_eq_true] at this
    rcases this with h | h
    · exact absurd h hne
    · simpa [polledBy] using h _ ht

def at0 (s : Int) : TimeVal := ⟨s, 0⟩

/-- An OPTIONS request is answered; its timers are run until 32 s later. -/
def politeOptions : List SOp :=
  [.act 1 (.exec 0 (at0 1000) (at0 1000)), .act 1 (.outgoing (response 200 "UDP" "OPTIONS")),
    .act 1 (.exec 0 (at0 1010) (at0 1010)), .act 1 (.tick (at0 1030)),
    .receive (request "UDP" "OPTIONS") (at0 1031) (at0 1031),
    .act 1 (.exec 0 (at0 1031) (at0 1031)), .act 1 (.tick (at0 1042))]

/-- An INVITE is refused, the ACK comes. -/
def politeInvite : List SOp :=
  [.act 1 (.exec 0 (at0 1000) (at0 1000)), .act 1 (.outgoing (response 486 "UDP" "INVITE")),
    .act 1 (.exec 0 (at0 1010) (at0 1010)), .act 1 (.tick (at0 1011)), 
    .act 1 (.exec 0 (at0 1011) (at0 1011)), .receive ack (at0 1012) (at0 1012),
    .act 1 (.exec 0 (at0 1012) (at0 1012)), .act 1 (.tick (at0 1017))]

end Ex

open Ex

/-- Such runs exist; at their end the transactions wait in COMPLETED and CONFIRMED. -/
example : ∃ s1, ({} : Stack).step (.receive (request "UDP" "OPTIONS") (at0 1000) (at0 1000)) = some s1 ∧
    Gently .NIST 1 s1 politeOptions ∧
    (s1.run politeOptions).map (·.nists.map (·.w.tr.state)) = some [.NIST_COMPLETED] := by
  have h : (({} : Stack).step (.receive (request "UDP" "OPTIONS") (at0 1000) (at0 1000))).any
      (fun s1 => gentlyB .NIST 1 s1 politeOptions &&
        decide ((s1.run politeOptions).map (·.nists.map (·.w.tr.state)) =
          some [.NIST_COMPLETED])) = true := by decide +kernel
  rw [Option.any_eq_true] at h
  obtain ⟨s1, h1, h2⟩ := h
  rw [Bool.and_eq_true, decide_eq_true_eq] at h2
  refine ⟨s1, h1, gently_of h2.1 ?_ (by decide +kernel), h2.2⟩
  cases h3 : s1.run politeOptions with
  | none => rw [h3] at h2; simp at h2
  | some _ => rfl

example : ∃ s1, ({} : Stack).step (.receive (request "UDP" "INVITE") (at0 1000) (at0 1000)) = some s1 ∧
    Gently .IST 1 s1 politeInvite ∧
    (s1.run politeInvite).map (·.ists.map (·.w.tr.state)) = some [.IST_CONFIRMED] := by
  have h : (({} : Stack).step (.receive (request "UDP" "INVITE") (at0 1000) (at0 1000))).any
      (fun s1 => gentlyB .IST 1 s1 politeInvite &&
        decide ((s1.run politeInvite).map (·.ists.map (·.w.tr.state)) =
          some [.IST_CONFIRMED])) = true := by decide +kernel
  rw [Option.any_eq_true] at h
  obtain ⟨s1, h1, h2⟩ := h
  rw [Bool.and_eq_true, decide_eq_true_eq] at h2
  refine ⟨s1, h1, gently_of h2.1 ?_ (by decide +kernel), h2.2⟩
  cases h3 : s1.run politeInvite with
  | none => rw [h3] at h2; simp at h2
  | some _ => rfl

/-- The request has a magic-cookie branch and came over UDP. -/
example : Unreliable (request "UDP" "OPTIONS") ∧ ∃ v b,
    (request "UDP" "OPTIONS").vias.head? = some v ∧ IsBranch v b ∧ Magic b :=
  ⟨⟨"UDP".toList, rfl, by rw [← isReliable_iff]; decide +kernel⟩, _, _, rfl,
    ⟨[], _, [], rfl, by simp, by decide, rfl⟩, ⟨"776".toList, by decide⟩⟩

/-- **C121 does not hold after a 2xx.** An INVITE is received and answered with 200; the transaction
ends at once and the program removes it. A copy of the INVITE that was delayed by a tenth of a second
creates a second transaction, whose execution reports a new INVITE to the program. -/
theorem c121_violated : ∃ s2 s3 s4 : Stack,
    ({} : Stack).run [.receive (request "UDP" "INVITE") (at0 1000) (at0 1000),
      .act 1 (.exec 0 (at0 1000) (at0 1000)), .act 1 (.outgoing (response 200 "UDP" "INVITE")),
      .act 1 (.exec 0 (at0 1000) (at0 1000)), .remove .IST 1] = some s2 ∧ s2.ids = [] ∧
    s2.step (.receive (request "UDP" "INVITE") ⟨1000, 100000⟩ ⟨1000, 100000⟩) = some s3 ∧
    s3.ids = [2] ∧ s3.step (.act 2 (.exec 0 ⟨1000, 100000⟩ ⟨1000, 100000⟩)) = some s4 ∧
    ∃ e ∈ s4.ists, ∃ x ∈ e.w.trace, x.isCbIn [.IST_INVITE_RECEIVED] = true := by
  have h : ((({} : Stack).run [.receive (request "UDP" "INVITE") (at0 1000) (at0 1000),
      .act 1 (.exec 0 (at0 1000) (at0 1000)), .act 1 (.outgoing (response 200 "UDP" "INVITE")),
      .act 1 (.exec 0 (at0 1000) (at0 1000)), .remove .IST 1]).any fun s2 =>
      decide (s2.ids = []) &&
      (s2.step (.receive (request "UDP" "INVITE") ⟨1000, 100000⟩ ⟨1000, 100000⟩)).any fun s3 =>
        decide (s3.ids = [2]) &&
        (s3.step (.act 2 (.exec 0 ⟨1000, 100000⟩ ⟨1000, 100000⟩))).any fun s4 =>
          s4.ists.any fun e => e.w.trace.any (·.isCbIn [.IST_INVITE_RECEIVED])) = true := by
    decide +kernel
  simp only [Option.any_eq_true, Bool.and_eq_true, decide_eq_true_eq, List.any_eq_true] at h
  obtain ⟨s2, h1, h2, s3, h3, h4, s4, h5, h6⟩ := h
  exact ⟨s2, s3, s4, h1, h2, h3, h4, h5, h6⟩

/-- The bound is sharp: run 33 s after the answer, the timers end the transaction. -/
example : (({} : Stack).run [.receive (request "UDP" "OPTIONS") (at0 1000) (at0 1000),
      .act 1 (.exec 0 (at0 1000) (at0 1000)), .act 1 (.outgoing (response 200 "UDP" "OPTIONS")),
      .act 1 (.exec 0 (at0 1010) (at0 1010)), .act 1 (.tick (at0 1043)),
      .act 1 (.exec 0 (at0 1043) (at0 1043))]).map (·.nists.map (·.w.tr.state)) =
    some [.NIST_TERMINATED] := by decide +kernel

end Osip
