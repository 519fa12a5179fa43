import Verif.Fsm.Spec

/-!
# Helper lemmas about the state machines (no property is stated here)
-/

namespace Osip

theorem find_mem {type : EvType} {state : State} {tbl : Table} {h : H}
    (hf : fsm_findmethod type state tbl = some h) : (state, type, h) ∈ tbl := by
  unfold fsm_findmethod at hf
  rw [Option.map_eq_some_iff] at hf
  obtain ⟨⟨s, t, h'⟩, hfind, rfl⟩ := hf
  have hp := List.find?_some hfind
  have hm := List.mem_of_find?_eq_some hfind
  simp only [Bool.and_eq_true, beq_iff_eq] at hp
  obtain ⟨rfl, rfl⟩ := hp
  exact hm

/-- What happens to the message of an event nobody handles. -/
def dropMsg (ev : Ev) : List Eff := if ev.type.isMsg then freeOpt ev.sip else []

/-- The three ways an event can be executed. -/
theorem exec_cases {env : Env} {tr t : Tr} {ev : Ev} {e : List Eff} {r : Int}
    (h : osip_transaction_execute env tr ev = some (t, e, r)) :
    (ev.type = .KILL_TRANSACTION ∧ t = tr ∧ e = []) ∨
    (fsm_findmethod ev.type tr.state (tableOf tr.ctx_type) = none ∧ t = tr ∧
      e = dropMsg ev) ∨
    (∃ hn : H, (tr.state, ev.type, hn) ∈ tableOf tr.ctx_type ∧ hn.run env tr ev = some (t, e)) := by
  unfold osip_transaction_execute at h
  split at h
  · simp only [Option.some.injEq, Prod.mk.injEq] at h
    exact .inl ⟨by assumption, h.1.symm, h.2.1.symm⟩
  · right
    split at h
    · simp only [Option.some.injEq, Prod.mk.injEq] at h
      exact .inl ⟨by assumption, h.1.symm, h.2.1.symm⟩
    · next hn hf =>
      right
      refine ⟨hn, find_mem hf, ?_⟩
      cases hr : hn.run env tr ev with
      | none => simp [hr] at h
      | some p =>
        obtain ⟨t', e'⟩ := p
        simp [hr] at h
        simp [h.1, h.2.1]

@[simp] theorem sendMsg_eq_some {r : Option Ref} {h p s} :
    sendMsg r h p = some s ↔ ∃ m, r = some m ∧ s = .send m h p := by
  cases r <;> simp [sendMsg, eq_comm]

@[simp] theorem snd_xxx_eq_some {env : Env} {m : Option Ref} {i : Int} {s : List Eff} :
    snd_xxx env m = some (i, s) ↔ ∃ r, m = some r ∧
      ((r.m.vias = [] ∧ i = OSIP_SYNTAXERROR ∧ s = []) ∨
       ∃ via vs, r.m.vias = via :: vs ∧ i = env.send ∧
        s = [.send r (viaDestination via).1 (viaDestination via).2]) := by
  cases m with
  | none => simp [snd_xxx]
  | some r =>
    cases hv : r.m.vias with
    | nil => simp [snd_xxx, hv, eq_comm]
    | cons v vs => simp [snd_xxx, hv, eq_comm]

/-! Effects of freeing a message -/

@[simp] theorem mem_freeOpt {x : Eff} {r : Option Ref} :
    x ∈ freeOpt r ↔ ∃ m, r = some m ∧ x = .freeMsg m.id := by
  cases r <;> simp [freeOpt]

@[simp] theorem countP_kill_freeOpt (r : Option Ref) : (freeOpt r).countP Eff.isKill = 0 := by
  cases r <;> simp [freeOpt, Eff.isKill]

@[simp] theorem countP_tpErr_freeOpt (r : Option Ref) : (freeOpt r).countP Eff.isTpErr = 0 := by
  cases r <;> simp [freeOpt, Eff.isTpErr]

@[simp] theorem countP_cbIn_freeOpt (cs : List Cb) (r : Option Ref) :
    (freeOpt r).countP (Eff.isCbIn cs) = 0 := by
  cases r <;> simp [freeOpt, Eff.isCbIn]

theorem isCbIn_cb (cs : List Cb) (c r) : Eff.isCbIn cs (.cb c r) = cs.contains c := rfl
theorem isCbIn_send (cs : List Cb) (r h p) : Eff.isCbIn cs (.send r h p) = false := rfl
theorem isCbIn_tpErr (cs : List Cb) (k i) : Eff.isCbIn cs (.tpErr k i) = false := rfl
theorem isCbIn_kill (cs : List Cb) (k) : Eff.isCbIn cs (.kill k) = false := rfl
theorem isCbIn_new (cs : List Cb) (k) : Eff.isCbIn cs (.newMsg k) = false := rfl
theorem isCbIn_free (cs : List Cb) (k) : Eff.isCbIn cs (.freeMsg k) = false := rfl

/-- Computes the number of callbacks of some kinds in a list of effects. -/
macro "count_cbs" "[" ls:Lean.Parser.Tactic.simpLemma,* "]" : tactic => `(tactic|
  simp (decide := true) only [List.countP_append, List.countP_cons, List.countP_nil, isCbIn_cb,
    isCbIn_send, isCbIn_tpErr, isCbIn_kill, isCbIn_new, isCbIn_free, countP_cbIn_freeOpt,
    List.contains_eq_mem, decide_eq_true_eq, if_true, if_false, Bool.false_eq_true, Nat.add_zero,
    Nat.zero_add, $ls,*])

@[simp] theorem sends_freeOpt (r : Option Ref) : sends (freeOpt r) = [] := by
  cases r <;> simp [freeOpt, sends]

@[simp] theorem callbacks_freeOpt (r : Option Ref) : callbacks (freeOpt r) = [] := by
  cases r <;> simp [freeOpt, callbacks]

@[simp] theorem sends_append (a b : List Eff) : sends (a ++ b) = sends a ++ sends b := by
  simp [sends]
@[simp] theorem sends_nil : sends [] = [] := rfl
@[simp] theorem sends_cons_send (r h p l) : sends (.send r h p :: l) = r :: sends l := rfl
@[simp] theorem sends_cons_cb (c r l) : sends (.cb c r :: l) = sends l := rfl
@[simp] theorem sends_cons_tpErr (c r l) : sends (.tpErr c r :: l) = sends l := rfl
@[simp] theorem sends_cons_kill (c l) : sends (.kill c :: l) = sends l := rfl
@[simp] theorem sends_cons_new (c l) : sends (.newMsg c :: l) = sends l := rfl
@[simp] theorem sends_cons_free (c l) : sends (.freeMsg c :: l) = sends l := rfl

@[simp] theorem callbacks_append (a b : List Eff) :
    callbacks (a ++ b) = callbacks a ++ callbacks b := by
  simp [callbacks]
@[simp] theorem callbacks_nil : callbacks [] = [] := rfl
@[simp] theorem callbacks_cons_send (r h p l) : callbacks (.send r h p :: l) = callbacks l := rfl
@[simp] theorem callbacks_cons_cb (c r l) : callbacks (.cb c r :: l) = (c, r) :: callbacks l := rfl
@[simp] theorem callbacks_cons_tpErr (c r l) : callbacks (.tpErr c r :: l) = callbacks l := rfl
@[simp] theorem callbacks_cons_kill (c l) : callbacks (.kill c :: l) = callbacks l := rfl
@[simp] theorem callbacks_cons_new (c l) : callbacks (.newMsg c :: l) = callbacks l := rfl
@[simp] theorem callbacks_cons_free (c l) : callbacks (.freeMsg c :: l) = callbacks l := rfl

@[simp] theorem mem_dropMsg {x : Eff} {ev : Ev} :
    x ∈ dropMsg ev ↔ ev.type.isMsg = true ∧ ∃ m, ev.sip = some m ∧ x = .freeMsg m.id := by
  unfold dropMsg; split <;> simp [*]
@[simp] theorem countP_kill_dropMsg (ev : Ev) : (dropMsg ev).countP Eff.isKill = 0 := by
  unfold dropMsg; split <;> simp
@[simp] theorem countP_tpErr_dropMsg (ev : Ev) : (dropMsg ev).countP Eff.isTpErr = 0 := by
  unfold dropMsg; split <;> simp
@[simp] theorem countP_cbIn_dropMsg (cs : List Cb) (ev : Ev) :
    (dropMsg ev).countP (Eff.isCbIn cs) = 0 := by
  unfold dropMsg; split <;> simp
@[simp] theorem sends_dropMsg (ev : Ev) : sends (dropMsg ev) = [] := by
  unfold dropMsg; split <;> simp
@[simp] theorem callbacks_dropMsg (ev : Ev) : callbacks (dropMsg ev) = [] := by
  unfold dropMsg; split <;> simp

/-- Unfolds a handler call `h : hn.run env tr ev = some (t, e)` and splits it into its paths,
leaving `t` and `e` replaced by their values. -/
macro "fsm_paths" h:ident : tactic => `(tactic| (
  simp only [H.run, ict_snd_invite, osip_ict_timeout_a_event, osip_ict_timeout_b_event,
    ict_rcv_1xx, ict_rcv_2xx, ict_rcv_3456xx, osip_ict_timeout_d_event, ict_retransmit_ack,
    nict_snd_request, osip_nict_timeout_e_event, osip_nict_timeout_f_event,
    osip_nict_timeout_k_event, nict_rcv_1xx, nict_rcv_23456xx,
    ist_rcv_invite, osip_ist_timeout_g_event, osip_ist_timeout_h_event, osip_ist_timeout_i_event,
    ist_snd_1xx, ist_snd_2xx, ist_snd_3456xx, ist_rcv_ack,
    nist_rcv_request, nist_snd_1xx, nist_snd_23456xx, osip_nist_timeout_j_event,
    ict_handle_transport_error, nict_handle_transport_error, ist_handle_transport_error,
    nist_handle_transport_error,
    Option.bind_eq_bind, Option.bind_eq_some_iff, Option.pure_def, sendMsg_eq_some,
    snd_xxx_eq_some, Prod.exists] at $h:ident
  repeat' (first
    | (obtain ⟨hz1, hz2⟩ := $h:ident; subst hz1; subst hz2)
    | (obtain ⟨⟨_, _, hz⟩, $h:ident⟩ := $h:ident; subst hz)
    | (obtain ⟨⟨_, _, ⟨_, hz1, hz2⟩ | ⟨_, _, _, hz1, hz2⟩⟩, $h:ident⟩ := $h:ident
       <;> subst hz1 <;> subst hz2)
    | (obtain ⟨_, $h:ident⟩ := $h:ident)
    | (simp only [Option.bind_eq_some_iff, snd_xxx_eq_some, Prod.exists, Option.some.injEq,
        Prod.mk.injEq, reduceCtorEq] at $h:ident)
    | (split at $h:ident))))

/-- From `h : osip_transaction_execute env tr ev = some (t, e, r)` and `hk : tr.ctx_type = K`
makes a goal for every path through every handler of `K`; `hs : tr.state = _`, `ht : ev.type = _`.
The last two goals are the kill event and the case without handler (`hs`). -/
macro "fsm_exec" h:ident hk:ident hs:ident ht:ident : tactic => `(tactic| (
  have hec := exec_cases $h:ident
  clear $h:ident
  rcases hec with ⟨$ht:ident, hz1, hz2⟩ | ⟨$hs:ident, hz1, hz2⟩ | ⟨hn, $ht:ident, hr⟩
  iterate 2 (subst hz1; subst hz2; rotate_left 1)
  focus
    rw [$hk:ident] at $ht:ident
    simp only [tableOf, ict_transition, nict_transition, ist_transition, nist_transition,
      List.mem_cons, Prod.mk.injEq, List.not_mem_nil, or_false] at $ht:ident
    repeat' (first
      | (rcases $ht:ident with $ht:ident | $ht:ident))
    all_goals (obtain ⟨$hs:ident, $ht:ident, hz⟩ := $ht:ident; subst hz)
    all_goals (fsm_paths hr)))

/-- Removes the paths that contradict the state of the transaction. -/
macro "fsm_prune" hs:ident : tactic => `(tactic|
  all_goals try (first | contradiction | (simp only [$hs:ident, reduceCtorEq] at *; done)))

theorem exec_ctx_type {env : Env} {tr t : Tr} {ev : Ev} {e : List Eff} {r : Int}
    (h : osip_transaction_execute env tr ev = some (t, e, r)) : t.ctx_type = tr.ctx_type := by
  cases hk : tr.ctx_type
  all_goals
    fsm_exec h hk hs ht
    all_goals exact hk

/-- Consistency of an event: a message event carries a message of that type. -/
def EvOk (ev : Ev) : Prop :=
  match ev.sip with
  | none => ev.type.isMsg = false
  | some r => evtAllowed r.m = true ∧
      (ev.type = evt_type_incoming r.m ∨ ev.type = evt_type_outgoing r.m)

theorem World.run_inv {I : World → Prop}
    (hstep : ∀ w o w', I w → w.step o = some w' → I w') :
    ∀ ops w w', I w → w.run ops = some w' → I w' := by
  intro ops
  induction ops with
  | nil => intro w w' hi h; simp [World.run] at h; exact h ▸ hi
  | cons o os ih =>
    intro w w' hi h
    simp only [World.run, Option.bind_eq_bind, Option.bind_eq_some_iff] at h
    obtain ⟨w1, h1, h2⟩ := h
    exact ih w1 w' (hstep _ _ _ hi h1) h2

theorem World.run_append (w : World) (a b : List Op) :
    w.run (a ++ b) = (w.run a).bind (fun w' => w'.run b) := by
  induction a generalizing w with
  | nil => rfl
  | cons o os ih =>
    simp only [List.cons_append, World.run, Option.bind_eq_bind]
    cases w.step o with
    | none => rfl
    | some w' => simp [ih]

theorem EvOk.timer {t : EvType} (h : t.isMsg = false) : EvOk ⟨t, none⟩ := h

theorem timersExecute_cases (tr : Tr) (q : List Ev) (now : TimeVal) :
    timersExecute tr q now = [] ∨ ∃ t, t.isMsg = false ∧ t ≠ .KILL_TRANSACTION ∧
      t ∈ timerOrder tr.ctx_type ∧
      needTimer tr t now = true ∧ timersExecute tr q now = [⟨t, none⟩] := by
  unfold timersExecute
  split
  · exact .inl rfl
  · split
    · exact .inl rfl
    · next t ht =>
      right
      have h1 := List.mem_of_find?_eq_some ht
      have h2 := List.find?_some ht
      refine ⟨t, ?_, ?_, h1, h2, rfl⟩
      · revert h2; cases t <;> simp [needTimer, EvType.isMsg]
      · revert h2; cases t <;> simp [needTimer]

/-- The shape of one operation. -/
theorem step_cases {w w' : World} {o : Op} (h : w.step o = some w') :
    (∃ q, w' = { w with queue := w.queue ++ q } ∧ ∀ e ∈ q, EvOk e ∧ e.sip = none) ∨
    (∃ ev m, ev.sip = some ⟨w.next, m⟩ ∧ EvOk ev ∧ (o = .incoming m ∨ o = .outgoing m) ∧
      w' = { w with queue := w.queue ++ [ev], next := w.next + 1,
                    trace := w.trace ++ [.newMsg w.next] }) ∨
    (∃ send now1 now2 ev q t e r, o = .exec send now1 now2 ∧ w.queue = ev :: q ∧
      osip_transaction_execute ⟨send, now1, now2, w.next⟩ w.tr ev = some (t, e, r) ∧
      w' = { tr := t, queue := q, next := w.next + 1, trace := w.trace ++ e,
             log := w.log ++ [⟨w.tr.state, ev, send⟩] }) := by
  cases o with
  | incoming m =>
    simp only [World.step] at h
    split at h
    · next ha =>
      simp only [Option.some.injEq] at h
      exact .inr (.inl ⟨⟨evt_type_incoming m, some ⟨w.next, m⟩⟩, m, rfl, ⟨ha, .inl rfl⟩, .inl rfl,
        h.symm⟩)
    · simp only [Option.some.injEq] at h
      exact .inl ⟨[], by simp [← h]⟩
  | outgoing m =>
    simp only [World.step] at h
    split at h
    · next ha =>
      simp only [Option.some.injEq] at h
      exact .inr (.inl ⟨⟨evt_type_outgoing m, some ⟨w.next, m⟩⟩, m, rfl, ⟨ha, .inr rfl⟩, .inr rfl,
        h.symm⟩)
    · simp only [Option.some.injEq] at h
      exact .inl ⟨[], by simp [← h]⟩
  | tick now =>
    simp only [World.step, Option.some.injEq] at h
    refine .inl ⟨timersExecute w.tr w.queue now, h.symm, ?_⟩
    rcases timersExecute_cases w.tr w.queue now with h0 | ⟨t, h1, _, _, _, h2⟩
    · simp [h0]
    · rw [h2]; simpa using EvOk.timer h1
  | timer t =>
    simp only [World.step] at h
    split at h
    · simp only [Option.some.injEq] at h
      exact .inl ⟨[], by simp [← h]⟩
    · next hn =>
      simp only [Option.some.injEq] at h
      refine .inl ⟨[⟨t, none⟩], h.symm, ?_⟩
      simp only [Bool.or_eq_true, not_or, Bool.not_eq_true] at hn
      simpa using EvOk.timer hn.1
  | kill =>
    simp only [World.step, Option.some.injEq] at h
    exact .inl ⟨[⟨.KILL_TRANSACTION, none⟩], h.symm, by simp [EvOk, EvType.isMsg]⟩
  | exec send now1 now2 =>
    simp only [World.step] at h
    split at h
    · simp only [Option.some.injEq] at h
      exact .inl ⟨[], by simp [← h]⟩
    · next ev q hq =>
      simp only [Option.bind_eq_bind, Option.bind_eq_some_iff, Prod.exists, Option.pure_def,
        Option.some.injEq] at h
      obtain ⟨t, e, r, h1, h2⟩ := h
      exact .inr (.inr ⟨send, now1, now2, ev, q, t, e, r, rfl, hq, h1, h2.symm⟩)

/-- The transaction just created. -/
theorem init_shape {k : Kind} {n1 n2 : TimeVal} {req : Msg} {t : Tr}
    (h : transactionInit k n1 n2 req = some (.ok t)) :
    t.ctx_type = k ∧ t.orig_request = none ∧ t.last_response = none ∧ t.ack = none ∧
    t.state = (match k with
      | .ICT => .ICT_PRE_CALLING | .IST => .IST_PRE_PROCEEDING
      | .NICT => .NICT_PRE_TRYING | .NIST => .NIST_PRE_TRYING) := by
  cases k <;> simp only [transactionInit, Option.bind_eq_bind, Option.bind_eq_some_iff] at h
  all_goals (try obtain ⟨c, hc, h⟩ := h)
  all_goals (split at h <;> simp at h <;> subst h <;> simp)

/-- Invariants of reachable worlds. -/
theorem reachO_inv {O : Op → Prop} {k : Kind} {I : World → Prop}
    (hinit : ∀ n1 n2 req t, transactionInit k n1 n2 req = some (.ok t) → I (World.init t))
    (hstep : ∀ w o w', ReachO O k w → I w → O o → w.step o = some w' → I w')
    {w : World} (h : ReachO O k w) : I w := by
  obtain ⟨n1, n2, req, t, ops, hi, hr, ho⟩ := h
  have key : ∀ ops (w w' : World), ReachO O k w → I w → (∀ o ∈ ops, O o) → w.run ops = some w' →
      I w' := by
    intro ops
    induction ops with
    | nil => intro w w' _ hi _ h; simp [World.run] at h; exact h ▸ hi
    | cons o os ih =>
      intro w w' hre hi ho h
      simp only [World.run, Option.bind_eq_bind, Option.bind_eq_some_iff] at h
      obtain ⟨w1, h1, h2⟩ := h
      have hre1 : ReachO O k w1 := by
        obtain ⟨a, b, c, d, ops', e1, e2, e3⟩ := hre
        refine ⟨a, b, c, d, ops' ++ [o], e1, ?_, ?_⟩
        · rw [World.run_append, e2]
          simp [World.run, h1]
        · intro o' ho'
          rcases List.mem_append.1 ho' with h | h
          · exact e3 _ h
          · simp at h; subst h; exact ho _ (by simp)
      exact ih w1 w' hre1 (hstep _ _ _ hre hi (ho _ (by simp)) h1)
        (fun o ho' => ho o (by simp [ho'])) h2
  exact key ops _ _ ⟨n1, n2, req, t, [], hi, rfl, by simp⟩ (hinit _ _ _ _ hi) ho hr

/-- The kind is constant and every queued event is consistent. -/
theorem reach_queue {O : Op → Prop} {k : Kind} {w : World} (h : ReachO O k w) :
    w.tr.ctx_type = k ∧ ∀ ev ∈ w.queue, EvOk ev := by
  refine reachO_inv (I := fun w => w.tr.ctx_type = k ∧ ∀ ev ∈ w.queue, EvOk ev) ?_ ?_ h
  · intro n1 n2 req t hi
    exact ⟨(init_shape hi).1, by simp [World.init]⟩
  · rintro w o w' _ ⟨h1, h2⟩ _ hs
    rcases step_cases hs with ⟨q, rfl, hq⟩ | ⟨ev, m, _, hok, _, rfl⟩ |
      ⟨_, _, _, ev, q, t, e, r, _, hq, he, rfl⟩
    · refine ⟨h1, fun ev hev => ?_⟩
      rcases List.mem_append.1 hev with h | h
      · exact h2 _ h
      · exact (hq _ h).1
    · refine ⟨h1, fun ev' hev => ?_⟩
      rcases List.mem_append.1 hev with h | h
      · exact h2 _ h
      · simp at h; exact h ▸ hok
    · refine ⟨(exec_ctx_type he).trans h1, fun ev' hev => h2 _ ?_⟩
      rw [hq]; exact List.mem_cons_of_mem _ hev

/-- Invariant over the transaction and what happened so far. -/
theorem reach_inv {O : Op → Prop} {k : Kind} {P : Tr → List Eff → Prop}
    (hinit : ∀ n1 n2 req t, transactionInit k n1 n2 req = some (.ok t) → P t [])
    (hnew : ∀ t tr id, P t tr → P t (tr ++ [.newMsg id]))
    (hexec : ∀ env t tr ev t' e r, P t tr → t.ctx_type = k → EvOk ev →
      osip_transaction_execute env t ev = some (t', e, r) → P t' (tr ++ e))
    {w : World} (h : ReachO O k w) : P w.tr w.trace := by
  refine reachO_inv (I := fun w => P w.tr w.trace) hinit ?_ h
  intro w o w' h1 h2 _ hs
  have hq := reach_queue h1
  rcases step_cases hs with ⟨q, rfl, _⟩ | ⟨ev, m, _, hok, _, rfl⟩ |
    ⟨_, _, _, ev, q, t, e, r, _, hqq, he, rfl⟩
  · exact h2
  · exact hnew _ _ _ h2
  · exact hexec _ _ _ _ _ _ _ h2 hq.1 (hq.2 ev (by simp [hqq])) he

/-- Invariant over the transaction, the effects and the executed events. -/
theorem reach_inv_log {O : Op → Prop} {k : Kind} {P : Tr → List Eff → List Done → Prop}
    (hinit : ∀ n1 n2 req t, transactionInit k n1 n2 req = some (.ok t) → P t [] [])
    (hnew : ∀ t tr l id, P t tr l → P t (tr ++ [.newMsg id]) l)
    (hexec : ∀ env t tr l ev t' e r, P t tr l → t.ctx_type = k → EvOk ev →
      osip_transaction_execute env t ev = some (t', e, r) →
      P t' (tr ++ e) (l ++ [⟨t.state, ev, env.send⟩]))
    {w : World} (h : ReachO O k w) : P w.tr w.trace w.log := by
  refine reachO_inv (I := fun w => P w.tr w.trace w.log) hinit ?_ h
  intro w o w' h1 h2 _ hs
  have hq := reach_queue h1
  rcases step_cases hs with ⟨q, rfl, _⟩ | ⟨ev, m, _, hok, _, rfl⟩ |
    ⟨_, _, _, ev, q, t, e, r, _, hqq, he, rfl⟩
  · exact h2
  · exact hnew _ _ _ _ h2
  · exact hexec ⟨_, _, _, _⟩ _ _ _ _ _ _ _ h2 hq.1 (hq.2 ev (by simp [hqq])) he

theorem ReachO.mono {O O' : Op → Prop} {k : Kind} {w : World} (h : ReachO O k w)
    (hO : ∀ o, O o → O' o) : ReachO O' k w := by
  obtain ⟨a, b, c, d, ops, e1, e2, e3⟩ := h
  exact ⟨a, b, c, d, ops, e1, e2, fun o ho => hO _ (e3 o ho)⟩

theorem ReachO.step {O : Op → Prop} {k : Kind} {w w' : World} {o : Op} (h : ReachO O k w)
    (ho : O o) (hs : w.step o = some w') : ReachO O k w' := by
  obtain ⟨a, b, c, d, ops, e1, e2, e3⟩ := h
  refine ⟨a, b, c, d, ops ++ [o], e1, ?_, ?_⟩
  · rw [World.run_append, e2]
    simp [World.run, hs]
  · intro o' ho'
    rcases List.mem_append.1 ho' with h | h
    · exact e3 _ h
    · simp at h; exact h ▸ ho

@[simp] theorem always_nil {Q : List Eff → Eff → Prop} : Always Q [] := by
  intro pre x post h; simp at h

theorem always_append {Q : List Eff → Eff → Prop} {l e : List Eff} :
    Always Q (l ++ e) ↔ Always Q l ∧ Always (fun pre x => Q (l ++ pre) x) e := by
  constructor
  · intro h
    refine ⟨fun pre x post hl => h pre x (post ++ e) (by simp [hl]),
      fun pre x post he => h (l ++ pre) x post (by simp [he])⟩
  · rintro ⟨h1, h2⟩ pre x post h
    rcases List.append_eq_append_iff.1 h with ⟨a, rfl, he⟩ | ⟨a, rfl, he⟩
    · exact h2 a x post he
    · cases a with
      | nil => simpa using h2 [] x post (by simpa using he.symm)
      | cons y a =>
        simp only [List.cons_append, List.cons.injEq] at he
        obtain ⟨rfl, rfl⟩ := he
        exact h1 pre x a rfl

@[simp] theorem always_cons {Q : List Eff → Eff → Prop} {x : Eff} {e : List Eff} :
    Always Q (x :: e) ↔ Q [] x ∧ Always (fun pre y => Q (x :: pre) y) e := by
  rw [← List.singleton_append, always_append]
  simp only [List.cons_append, List.nil_append]
  refine and_congr_left fun _ => ?_
  constructor
  · intro h; exact h [] x [] rfl
  · intro h pre y post he
    cases pre with
    | nil => simp at he; exact he.1 ▸ h
    | cons a l => simp at he

/-- Everything that happens along a run satisfies `R`, if every step preserves `I` and does. -/
theorem run_more {I : World → Prop} {R : Eff → Prop}
    (hstep : ∀ w o w', I w → w.step o = some w' → I w' ∧
      ∃ e, w'.trace = w.trace ++ e ∧ ∀ x ∈ e, R x) {ops : List Op} {w w' : World} (hi : I w)
    (h : w.run ops = some w') : I w' ∧ ∃ e, w'.trace = w.trace ++ e ∧ ∀ x ∈ e, R x := by
  refine World.run_inv (I := fun w1 => I w1 ∧ ∃ e, w1.trace = w.trace ++ e ∧ ∀ x ∈ e, R x) ?_
    ops w w' ⟨hi, [], by simp, by simp⟩ h
  rintro w1 o w2 ⟨h1, e, he, hR⟩ hs
  obtain ⟨h2, e2, he2, hR2⟩ := hstep _ _ _ h1 hs
  refine ⟨h2, e ++ e2, by rw [he2, he, List.append_assoc], fun x hx => ?_⟩
  rcases List.mem_append.1 hx with h | h
  · exact hR _ h
  · exact hR2 _ h

/-- As `run_more`, from a property of executed events. -/
theorem run_more_exec {k : Kind} {I : Tr → Prop} {R : Eff → Prop} (hnew : ∀ id, R (.newMsg id))
    (hexec : ∀ env t ev t' e r, I t → t.ctx_type = k → EvOk ev →
      osip_transaction_execute env t ev = some (t', e, r) → I t' ∧ ∀ x ∈ e, R x)
    {ops : List Op} {w w' : World} {O : Op → Prop} (hre : ReachO O k w) (hi : I w.tr)
    (h : w.run ops = some w') : I w'.tr ∧ ∃ e, w'.trace = w.trace ++ e ∧ ∀ x ∈ e, R x := by
  have := run_more (I := fun w => I w.tr ∧ Reach k w) (R := R) ?_
    (w := w) ⟨hi, hre.mono (fun _ _ => trivial)⟩ h
  · exact ⟨this.1.1, this.2⟩
  · rintro w1 o w2 ⟨h1, h2⟩ hs
    have hq := reach_queue h2
    have h3 := h2.step trivial hs
    rcases step_cases hs with ⟨q, rfl, _⟩ | ⟨ev, m, _, hok, _, rfl⟩ |
      ⟨_, _, _, ev, q, t, e, r, _, hqq, he, rfl⟩
    · exact ⟨⟨h1, h3⟩, [], by simp, by simp⟩
    · exact ⟨⟨h1, h3⟩, [_], rfl, by simpa using hnew _⟩
    · obtain ⟨a, b⟩ := hexec _ _ _ _ _ _ h1 hq.1 (hq.2 ev (by simp [hqq])) he
      exact ⟨⟨a, h3⟩, e, rfl, b⟩

theorem always_mono {Q Q' : List Eff → Eff → Prop} {l : List Eff} (h : Always Q l)
    (hm : ∀ pre x, Q pre x → Q' pre x) : Always Q' l :=
  fun pre x post he => hm _ _ (h pre x post he)

/-- `Always` for effects in a list none of which matters. -/
theorem always_of_forall {Q : List Eff → Eff → Prop} {l : List Eff} (h : ∀ pre, ∀ x ∈ l, Q pre x) :
    Always Q l :=
  fun pre x _ he => h pre x (by simp [he])

@[simp] theorem always_freeOpt {Q : List Eff → Eff → Prop} {r : Option Ref} :
    Always Q (freeOpt r) ↔ ∀ m, r = some m → Q [] (.freeMsg m.id) := by
  cases r <;> simp [freeOpt]

theorem forall_sends {P : Ref → Prop} {e : List Eff} :
    (∀ s ∈ sends e, P s) ↔ ∀ x ∈ e, ∀ s ∈ sends [x], P s := by
  induction e with
  | nil => simp
  | cons y ys ih =>
    rw [← List.singleton_append, sends_append]
    simp only [List.mem_append, or_imp, forall_and, ih, List.mem_singleton, forall_eq]

theorem ReachFrom.reach {R : Msg → Prop} {O : Op → Prop} {k : Kind} {w : World}
    (h : ReachFrom R O k w) : ReachO O k w := by
  obtain ⟨a, b, c, d, ops, _, e1, e2, e3⟩ := h
  exact ⟨a, b, c, d, ops, e1, e2, e3⟩

/-- Invariants of worlds reached from some requests. -/
theorem reachFrom_inv {R : Msg → Prop} {O : Op → Prop} {k : Kind} {I : World → Prop}
    (hinit : ∀ n1 n2 req t, R req → transactionInit k n1 n2 req = some (.ok t) →
      I (World.init t))
    (hstep : ∀ w o w', ReachO O k w → I w → O o → w.step o = some w' → I w')
    {w : World} (h : ReachFrom R O k w) : I w := by
  obtain ⟨n1, n2, req, t, ops, hR, hi, hr, ho⟩ := h
  have key : ∀ ops (w w' : World), ReachO O k w → I w → (∀ o ∈ ops, O o) → w.run ops = some w' →
      I w' := by
    intro ops
    induction ops with
    | nil => intro w w' _ hi _ h; simp [World.run] at h; exact h ▸ hi
    | cons o os ih =>
      intro w w' hre hi ho h
      simp only [World.run, Option.bind_eq_bind, Option.bind_eq_some_iff] at h
      obtain ⟨w1, h1, h2⟩ := h
      exact ih w1 w' (hre.step (ho _ (by simp)) h1) (hstep _ _ _ hre hi (ho _ (by simp)) h1)
        (fun o ho' => ho o (by simp [ho'])) h2
  exact key ops _ _ ⟨n1, n2, req, t, [], hi, rfl, by simp⟩ (hinit _ _ _ _ hR hi) ho hr

/-- Invariant over the transaction, the effects and the executed events. -/
theorem reachFrom_inv_log {R : Msg → Prop} {O : Op → Prop} {k : Kind}
    {P : Tr → List Eff → List Done → Prop}
    (hinit : ∀ n1 n2 req t, R req → transactionInit k n1 n2 req = some (.ok t) → P t [] [])
    (hnew : ∀ t tr l id, P t tr l → P t (tr ++ [.newMsg id]) l)
    (hexec : ∀ env t tr l ev t' e r, P t tr l → t.ctx_type = k → EvOk ev →
      osip_transaction_execute env t ev = some (t', e, r) →
      P t' (tr ++ e) (l ++ [⟨t.state, ev, env.send⟩]))
    {w : World} (h : ReachFrom R O k w) : P w.tr w.trace w.log := by
  refine reachFrom_inv (I := fun w => P w.tr w.trace w.log) hinit ?_ h
  intro w o w' h1 h2 _ hs
  have hq := reach_queue h1
  rcases step_cases hs with ⟨q, rfl, _⟩ | ⟨ev, m, _, hok, _, rfl⟩ |
    ⟨_, _, _, ev, q, t, e, r, _, hqq, he, rfl⟩
  · exact h2
  · exact hnew _ _ _ _ h2
  · exact hexec ⟨_, _, _, _⟩ _ _ _ _ _ _ _ h2 hq.1 (hq.2 ev (by simp [hqq])) he

/-- The queue of a world in which timer events come from the timer loop only: every queued timer
event satisfied its condition `C` (`needTimer`-like) when queued, `C` being stable. -/
theorem step_queue {w w' : World} {o : Op} (h : w.step o = some w') :
    (∃ ev, w'.queue = w.queue ++ [ev] ∧ w'.tr = w.tr ∧
      (ev.type.isMsg = true ∨ ev.type = .KILL_TRANSACTION ∨
        (∃ now, o = .tick now ∧ needTimer w.tr ev.type now = true) ∨ o = .timer ev.type)) ∨
    (w'.queue = w.queue ∧ w'.tr = w.tr ∧ w'.trace = w.trace) ∨
    (∃ ev, w.queue = ev :: w'.queue) := by
  cases o with
  | incoming m =>
    simp only [World.step] at h
    split at h <;> simp only [Option.some.injEq] at h <;> subst h
    · refine .inl ⟨_, rfl, rfl, .inl ?_⟩
      simp only [evt_type_incoming]; repeat' split
      all_goals rfl
    · exact .inr (.inl ⟨rfl, rfl, rfl⟩)
  | outgoing m =>
    simp only [World.step] at h
    split at h <;> simp only [Option.some.injEq] at h <;> subst h
    · refine .inl ⟨_, rfl, rfl, .inl ?_⟩
      simp only [evt_type_outgoing]; repeat' split
      all_goals rfl
    · exact .inr (.inl ⟨rfl, rfl, rfl⟩)
  | tick now =>
    simp only [World.step, Option.some.injEq] at h
    subst h
    rcases timersExecute_cases w.tr w.queue now with h0 | ⟨t, h1, _, _, h3, h2⟩
    · exact .inr (.inl ⟨by simp [h0], rfl, rfl⟩)
    · exact .inl ⟨⟨t, none⟩, by simp [h2], rfl, .inr (.inr (.inl ⟨now, rfl, h3⟩))⟩
  | timer t =>
    simp only [World.step] at h
    split at h <;> simp only [Option.some.injEq] at h <;> subst h
    · exact .inr (.inl ⟨rfl, rfl, rfl⟩)
    · exact .inl ⟨⟨t, none⟩, rfl, rfl, .inr (.inr (.inr rfl))⟩
  | kill =>
    simp only [World.step, Option.some.injEq] at h
    subst h
    exact .inl ⟨_, rfl, rfl, .inr (.inl rfl)⟩
  | exec send now1 now2 =>
    simp only [World.step] at h
    split at h
    · simp only [Option.some.injEq] at h
      subst h
      exact .inr (.inl ⟨rfl, rfl, rfl⟩)
    · next ev q hq =>
      simp only [Option.bind_eq_bind, Option.bind_eq_some_iff, Prod.exists, Option.pure_def,
        Option.some.injEq] at h
      obtain ⟨t, e, r, h1, rfl⟩ := h
      exact .inr (.inr ⟨ev, hq⟩)

end Osip
