import Verif.Fsm.Lemmas
import Verif.Fsm.Examples
import Verif.Fsm.AckLemmas

/-!
# Properties of all four transaction kinds: C01, C02, C03, C15
-/

namespace Osip

/-! ## C01 -/

/-- No table has an entry for a TERMINATED state. -/
theorem terminated_no_method {tr : Tr} {t : EvType} (h : tr.state.isTerminated = true) :
    fsm_findmethod t tr.state (tableOf tr.ctx_type) = none := by
  cases hk : tr.ctx_type <;> cases hs : tr.state <;> simp [hs, State.isTerminated] at h <;>
    cases t <;> rfl

/-- **C01** (one event). A transaction in a TERMINATED state executes every event without
failing: it does not change at all, and the only thing that happens is that the message of the
event, if there is one, is freed. -/
theorem c01_terminated_silent (env : Env) (tr : Tr) (ev : Ev) (hok : EvOk ev)
    (hterm : tr.state.isTerminated = true) :
    ∃ r, osip_transaction_execute env tr ev =
      some (tr, (match ev.sip with | none => [] | some m => [.freeMsg m.id]), r) := by
  unfold osip_transaction_execute
  split
  · next hk =>
    refine ⟨OSIP_SUCCESS, ?_⟩
    cases hs : ev.sip with
    | none => rfl
    | some m =>
      exfalso
      simp only [EvOk, hs, hk] at hok
      rcases hok.2 with h | h
      · unfold evt_type_incoming at h; (repeat' split at h) <;> simp at h
      · unfold evt_type_outgoing at h; (repeat' split at h) <;> simp at h
  · rw [terminated_no_method hterm]
    refine ⟨1, ?_⟩
    cases hs : ev.sip with
    | none => simp [freeOpt]
    | some m =>
      simp only [EvOk, hs] at hok
      have : ev.type.isMsg = true := by
        rcases hok.2 with h | h <;> rw [h]
        · unfold evt_type_incoming; (repeat' split) <;> rfl
        · unfold evt_type_outgoing; (repeat' split) <;> rfl
      simp [this, freeOpt]

/-- **C01** (any later history). From a TERMINATED transaction on, whatever is done to it: the
transaction never changes again and nothing is sent and no callback is called (only messages are
allocated by the caller and freed by the library). -/
theorem c01_terminated_silent_forever {k : Kind} {w w' : World} (hr : Reach k w)
    (hterm : w.tr.state.isTerminated = true) (ops : List Op) (h : w.run ops = some w') :
    w'.tr = w.tr ∧ ∃ more, w'.trace = w.trace ++ more ∧ ∀ e ∈ more, e.isMem = true := by
  have key : ∀ ops (w0 w' : World), (w0.tr = w.tr ∧ (∀ ev ∈ w0.queue, EvOk ev) ∧
      ∃ more, w0.trace = w.trace ++ more ∧ ∀ e ∈ more, e.isMem = true) → w0.run ops = some w' →
      (w'.tr = w.tr ∧ (∀ ev ∈ w'.queue, EvOk ev) ∧
      ∃ more, w'.trace = w.trace ++ more ∧ ∀ e ∈ more, e.isMem = true) := by
    refine World.run_inv ?_
    rintro w0 o w1 ⟨h1, hq, more, hm, hmem⟩ hs
    rcases step_cases hs with ⟨q, rfl, hq2⟩ | ⟨ev, m, _, hok, _, rfl⟩ |
      ⟨_, _, _, ev, q, t, e, r, _, hqq, he, rfl⟩
    · refine ⟨h1, fun ev hev => ?_, more, hm, hmem⟩
      rcases List.mem_append.1 hev with h | h
      · exact hq _ h
      · exact (hq2 _ h).1
    · refine ⟨h1, fun ev' hev => ?_, more ++ [.newMsg w0.next], by simp [hm], ?_⟩
      · rcases List.mem_append.1 hev with h | h
        · exact hq _ h
        · simp at h; exact h ▸ hok
      · intro e he
        rcases List.mem_append.1 he with h | h
        · exact hmem _ h
        · simp at h; subst h; rfl
    · have hev : EvOk ev := hq ev (by simp [hqq])
      have hterm0 : w0.tr.state.isTerminated = true := by rw [h1]; exact hterm
      obtain ⟨r', hx⟩ := c01_terminated_silent ⟨_, _, _, w0.next⟩ w0.tr ev hev hterm0
      rw [hx] at he
      simp only [Option.some.injEq, Prod.mk.injEq] at he
      obtain ⟨rfl, rfl, -⟩ := he
      refine ⟨h1, fun ev' h => hq _ (by simp [hqq, h]), more ++ _, by rw [hm, List.append_assoc], ?_⟩
      intro x hx
      rcases List.mem_append.1 hx with h | h
      · exact hmem _ h
      · cases hsip : ev.sip <;> simp [hsip] at h
        subst h; rfl
  have := key ops w w' ⟨rfl, (reach_queue hr).2, [], by simp, by simp⟩ h
  exact ⟨this.1, this.2.2⟩

example : ∃ w, Reach .ICT w ∧ (w.tr.state.isTerminated = true ∧ w.queue.length = 2) :=
  Ex.reach_exists Ex.invite [.outgoing Ex.invite, Ex.x, .incoming (Ex.response 200 "UDP" "INVITE"),
    .incoming (Ex.response 486 "UDP" "INVITE"), .timer .TIMEOUT_A, Ex.x] (by decide +kernel)

/-! ## C02 -/

/-- The statement of C02 about a transaction and its trace. -/
def KillOnce (k : Kind) (t : Tr) (tr : List Eff) : Prop :=
  tr.countP Eff.isKill = (if t.state.isTerminated then 1 else 0) ∧
  (t.state.isTerminated = true → t.state = terminatedOf k ∧ Eff.kill k ∈ tr)

theorem killOnce_ICT {env t tr ev t' e r} (hp : KillOnce .ICT t tr) (hk : t.ctx_type = .ICT)
    (he : osip_transaction_execute env t ev = some (t', e, r)) : KillOnce .ICT t' (tr ++ e) := by
  fsm_exec he hk hs ht
  all_goals first
    | simpa [KillOnce] using hp
    | (simp only [KillOnce, hs, State.isTerminated] at hp
       simp [KillOnce, hp.1, hs, List.countP_append, List.countP_cons, Eff.isKill,
         State.isTerminated, terminatedOf])

theorem killOnce_NICT {env t tr ev t' e r} (hp : KillOnce .NICT t tr) (hk : t.ctx_type = .NICT)
    (he : osip_transaction_execute env t ev = some (t', e, r)) : KillOnce .NICT t' (tr ++ e) := by
  fsm_exec he hk hs ht
  all_goals first
    | simpa [KillOnce] using hp
    | (simp only [KillOnce, hs, State.isTerminated] at hp
       simp [KillOnce, hp.1, hs, List.countP_append, List.countP_cons, Eff.isKill,
         State.isTerminated, terminatedOf])

theorem killOnce_IST {env t tr ev t' e r} (hp : KillOnce .IST t tr) (hk : t.ctx_type = .IST)
    (he : osip_transaction_execute env t ev = some (t', e, r)) : KillOnce .IST t' (tr ++ e) := by
  fsm_exec he hk hs ht
  all_goals first
    | simpa [KillOnce] using hp
    | (simp only [KillOnce, hs, State.isTerminated] at hp
       simp [KillOnce, hp.1, hs, List.countP_append, List.countP_cons, Eff.isKill,
         State.isTerminated, terminatedOf])

theorem killOnce_NIST {env t tr ev t' e r} (hp : KillOnce .NIST t tr) (hk : t.ctx_type = .NIST)
    (he : osip_transaction_execute env t ev = some (t', e, r)) : KillOnce .NIST t' (tr ++ e) := by
  fsm_exec he hk hs ht
  all_goals first
    | simpa [KillOnce] using hp
    | (simp only [KillOnce, hs, State.isTerminated] at hp
       simp [KillOnce, hp.1, hs, List.countP_append, List.countP_cons, Eff.isKill,
         State.isTerminated, terminatedOf])

/-- **C02**. Along any history of a transaction the kill callback has been called exactly once if
the transaction is in a TERMINATED state and not at all otherwise; the state is the TERMINATED state
of its own kind, and the callback names that kind. -/
theorem c02_kill_once {k : Kind} {w : World} (h : Reach k w) :
    w.trace.countP Eff.isKill = (if w.tr.state.isTerminated then 1 else 0) ∧
    (w.tr.state.isTerminated = true → w.tr.state = terminatedOf k ∧ Eff.kill k ∈ w.trace) := by
  refine reach_inv (k := k) (P := KillOnce k) ?_ ?_ ?_ h
  · intro n1 n2 req t hi
    have := (init_shape hi).2.2.2.2
    cases k <;> simp [KillOnce, this, State.isTerminated]
  · intro t tr id hp
    simpa [KillOnce, List.countP_append, List.countP_cons, Eff.isKill] using hp
  · intro env t tr ev t' e r hp hk _ he
    cases k
    · exact killOnce_ICT hp hk he
    · exact killOnce_IST hp hk he
    · exact killOnce_NICT hp hk he
    · exact killOnce_NIST hp hk he

example : ∃ w, Reach .NICT w ∧ (w.tr.state.isTerminated = true) :=
  Ex.reach_exists Ex.options [.outgoing Ex.options, Ex.x, .tick Ex.t2, Ex.x] (by decide +kernel)

/-! ## C03 -/

/-- The statement of C03 about one executed event. -/
def FollowsRfc (k : Kind) (s : State) (ty : EvType) (s' : State) (e : List Eff) : Prop :=
  (e.countP Eff.isTpErr = 0 ∧ s' = (rfcNext k s ty).getD s) ∨
  (e.countP Eff.isTpErr ≠ 0 ∧ s' = terminatedOf k ∧ (rfcNext k s ty).isSome)

theorem no_method_no_arrow {k : Kind} {s : State} {ty : EvType}
    (h : fsm_findmethod ty s (tableOf k) = none) : rfcNext k s ty = none := by
  cases k <;> cases s <;> first
    | rfl
    | (cases ty <;> first | rfl | (exact absurd h (by decide)))

theorem kill_no_arrow (k : Kind) (s : State) : rfcNext k s .KILL_TRANSACTION = none := by
  cases k <;> cases s <;> rfl

theorem rfc_ICT {env t ev t' e r} (hk : t.ctx_type = .ICT)
    (hack : t.state = .ICT_CALLING ∨ t.state = .ICT_PROCEEDING → ev.type = .RCV_STATUS_3456XX →
      ∀ orig resp, t.orig_request = some orig → ev.sip = some resp →
        InviteComplete orig.m ∧ ResponseComplete resp.m)
    (he : osip_transaction_execute env t ev = some (t', e, r)) :
    FollowsRfc .ICT t.state ev.type t'.state e := by
  fsm_exec he hk hs ht
  any_goals (rw [hk] at hs; simp [FollowsRfc, no_method_no_arrow hs]; done)
  any_goals (simp [FollowsRfc, ht, kill_no_arrow]; done)
  any_goals (simp [FollowsRfc, hs, ht, rfcNext, terminatedOf, List.countP_append, List.countP_cons,
    Eff.isTpErr]; done)
  all_goals
    rename_i resp hresp orig horig _ hnone
    have := create_ack_isSome.2 (hack (by simp [hs]) ht orig resp horig hresp)
    rw [hnone] at this
    simp at this

theorem rfc_NICT {env t ev t' e r} (hk : t.ctx_type = .NICT)
    (he : osip_transaction_execute env t ev = some (t', e, r)) :
    FollowsRfc .NICT t.state ev.type t'.state e := by
  fsm_exec he hk hs ht
  any_goals (rw [hk] at hs; simp [FollowsRfc, no_method_no_arrow hs]; done)
  any_goals (simp [FollowsRfc, ht, kill_no_arrow]; done)
  all_goals (simp [FollowsRfc, hs, ht, rfcNext, terminatedOf, List.countP_append, List.countP_cons,
    Eff.isTpErr]; done)

theorem rfc_IST {env t ev t' e r} (hk : t.ctx_type = .IST)
    (he : osip_transaction_execute env t ev = some (t', e, r)) :
    FollowsRfc .IST t.state ev.type t'.state e := by
  fsm_exec he hk hs ht
  any_goals (rw [hk] at hs; simp [FollowsRfc, no_method_no_arrow hs]; done)
  any_goals (simp [FollowsRfc, ht, kill_no_arrow]; done)
  any_goals (simp [FollowsRfc, hs, ht, rfcNext, terminatedOf, List.countP_append, List.countP_cons,
    Eff.isTpErr]; done)
  all_goals simp_all

theorem rfc_NIST {env t ev t' e r} (hk : t.ctx_type = .NIST)
    (he : osip_transaction_execute env t ev = some (t', e, r)) :
    FollowsRfc .NIST t.state ev.type t'.state e := by
  fsm_exec he hk hs ht
  any_goals (rw [hk] at hs; simp [FollowsRfc, no_method_no_arrow hs]; done)
  any_goals (simp [FollowsRfc, ht, kill_no_arrow]; done)
  any_goals (simp [FollowsRfc, hs, ht, rfcNext, terminatedOf, List.countP_append, List.countP_cons,
    Eff.isTpErr]; done)
  all_goals simp_all

/-- **C03**, except for one case. Executing any event, in any state, moves the transaction along
the arrow RFC 3261 draws for that event (and leaves the state alone if there is no arrow), unless a
transport error was reported, in which case the transaction is TERMINATED and the event did have an
arrow. What is missing with respect to C03: a 3xx-6xx response to an INVITE for which no ACK can be
built (`hack`), see `c03_violated`. -/
theorem c03_rfc_transitions_partial {env t ev t' e r}
    (hack : t.ctx_type = .ICT → t.state = .ICT_CALLING ∨ t.state = .ICT_PROCEEDING →
      ev.type = .RCV_STATUS_3456XX →
      ∀ orig resp, t.orig_request = some orig → ev.sip = some resp →
        InviteComplete orig.m ∧ ResponseComplete resp.m)
    (he : osip_transaction_execute env t ev = some (t', e, r)) :
    (e.countP Eff.isTpErr = 0 ∧ t'.state = (rfcNext t.ctx_type t.state ev.type).getD t.state) ∨
    (e.countP Eff.isTpErr ≠ 0 ∧ t'.state = terminatedOf t.ctx_type ∧
      (rfcNext t.ctx_type t.state ev.type).isSome) := by
  cases hk : t.ctx_type
  · exact rfc_ICT hk (hack hk) he
  · exact rfc_IST hk he
  · exact rfc_NICT hk he
  · exact rfc_NIST hk he

example : InviteComplete Ex.invite ∧ ResponseComplete (Ex.response 486 "UDP" "INVITE") :=
  create_ack_isSome.1 (by decide +kernel)

/-- The full statement of C03 fails: an INVITE client transaction in PROCEEDING that receives a
486 response without To header goes to TERMINATED, not to COMPLETED, and no transport error is
reported (src/osip2/ict_fsm.c:378-382). -/
theorem c03_violated :
    ∃ w w', Reach .ICT w ∧ w.tr.state = .ICT_PROCEEDING ∧
      w.queue.map (·.type) = [.RCV_STATUS_3456XX] ∧
      w.step Ex.x = some w' ∧ w'.tr.state = .ICT_TERMINATED ∧
      w'.trace.countP Eff.isTpErr = 0 ∧
      rfcNext .ICT w.tr.state .RCV_STATUS_3456XX = some .ICT_COMPLETED := by
  have hx : ∃ w, Ex.go .ICT Ex.invite [.outgoing Ex.invite, Ex.x,
      .incoming (Ex.response 180 "UDP" "INVITE"), Ex.x,
      .incoming { Ex.response 486 "UDP" "INVITE" with to := none }] = some w :=
    Option.isSome_iff_exists.1 (by decide +kernel)
  obtain ⟨w, hw⟩ := hx
  have hx' : ∃ w', w.step Ex.x = some w' := by
    have : ((Ex.go .ICT Ex.invite [.outgoing Ex.invite, Ex.x,
      .incoming (Ex.response 180 "UDP" "INVITE"), Ex.x,
      .incoming { Ex.response 486 "UDP" "INVITE" with to := none }]).bind (·.step Ex.x)).isSome :=
      by decide +kernel
    rw [hw] at this
    exact Option.isSome_iff_exists.1 this
  obtain ⟨w', hw'⟩ := hx'
  have h1 : (Ex.go .ICT Ex.invite [.outgoing Ex.invite, Ex.x,
      .incoming (Ex.response 180 "UDP" "INVITE"), Ex.x,
      .incoming { Ex.response 486 "UDP" "INVITE" with to := none }]).any (fun w =>
        decide (w.tr.state = .ICT_PROCEEDING ∧ w.queue.map (·.type) = [.RCV_STATUS_3456XX]) &&
        (w.step Ex.x).any (fun w' => decide (w'.tr.state = .ICT_TERMINATED ∧
          w'.trace.countP Eff.isTpErr = 0))) = true := by decide +kernel
  rw [hw] at h1
  simp only [Option.any_some, hw', Bool.and_eq_true, decide_eq_true_eq] at h1
  exact ⟨w, w', Ex.reach_of_go hw, h1.1.1, h1.1.2, hw', h1.2.1, h1.2.2, by rw [h1.1.1]; rfl⟩

/-! ## C15 -/

/-- The statement of C15 about one executed event. -/
def FailsCleanly (k : Kind) (err : Int) (t' : Tr) (e : List Eff) : Prop :=
  ∃ pre, e = pre ++ [.tpErr k err, .kill k] ∧ pre.countP Eff.isTpErr = 0 ∧
    pre.countP Eff.isKill = 0 ∧ t'.state = terminatedOf k

theorem fails_ICT {env t ev t' e r} (hk : t.ctx_type = .ICT) (hs0 : sends e ≠ [])
    (hneg : env.send < 0)
    (he : osip_transaction_execute env t ev = some (t', e, r)) :
    FailsCleanly .ICT env.send t' e := by
  fsm_exec he hk hs ht
  any_goals (exfalso; simp at hs0; done)
  any_goals (exfalso; omega)
  all_goals first
    | exact ⟨[_], rfl, by simp [Eff.isTpErr], by simp [Eff.isKill], rfl⟩
    | exact ⟨[_, _], rfl, by simp [Eff.isTpErr], by simp [Eff.isKill], rfl⟩
    | exact ⟨_ ++ _, rfl, by simp [Eff.isTpErr], by simp [Eff.isKill], rfl⟩

theorem fails_NICT {env t ev t' e r} (hk : t.ctx_type = .NICT) (hs0 : sends e ≠ [])
    (hneg : env.send < 0)
    (he : osip_transaction_execute env t ev = some (t', e, r)) :
    FailsCleanly .NICT env.send t' e := by
  fsm_exec he hk hs ht
  any_goals (exfalso; simp at hs0; done)
  any_goals (exfalso; omega)
  all_goals first
    | exact ⟨[_], rfl, by simp [Eff.isTpErr], by simp [Eff.isKill], rfl⟩
    | exact ⟨[_, _], rfl, by simp [Eff.isTpErr], by simp [Eff.isKill], rfl⟩
    | exact ⟨_ ++ _, rfl, by simp [Eff.isTpErr], by simp [Eff.isKill], rfl⟩

theorem fails_IST {env t ev t' e r} (hk : t.ctx_type = .IST) (hs0 : sends e ≠ [])
    (hneg : env.send ≠ 0)
    (he : osip_transaction_execute env t ev = some (t', e, r)) :
    FailsCleanly .IST env.send t' e := by
  fsm_exec he hk hs ht
  any_goals (exfalso; simp at hs0; done)
  any_goals (exfalso; omega)
  all_goals first
    | exact ⟨[_], rfl, by simp [Eff.isTpErr], by simp [Eff.isKill], rfl⟩
    | exact ⟨[_, _], rfl, by simp [Eff.isTpErr], by simp [Eff.isKill], rfl⟩
    | exact ⟨_ ++ _, rfl, by simp [Eff.isTpErr], by simp [Eff.isKill], rfl⟩

theorem fails_NIST {env t ev t' e r} (hk : t.ctx_type = .NIST) (hs0 : sends e ≠ [])
    (hneg : env.send ≠ 0)
    (he : osip_transaction_execute env t ev = some (t', e, r)) :
    FailsCleanly .NIST env.send t' e := by
  fsm_exec he hk hs ht
  any_goals (exfalso; simp at hs0; done)
  any_goals (exfalso; omega)
  all_goals first
    | exact ⟨[_], rfl, by simp [Eff.isTpErr], by simp [Eff.isKill], rfl⟩
    | exact ⟨[_, _], rfl, by simp [Eff.isTpErr], by simp [Eff.isKill], rfl⟩
    | exact ⟨_ ++ _, rfl, by simp [Eff.isTpErr], by simp [Eff.isKill], rfl⟩

/-- **C15**. Whenever a transaction of any kind hands a message to the application's send function
while executing an event and the function reports a failure (a negative value), the transport-error
callback is called exactly once, with that value, it is the last thing that happens apart from the
kill callback, which follows immediately, and the transaction is TERMINATED. -/
theorem c15_send_failure {env t ev t' e r} (hsent : sends e ≠ []) (hneg : env.send < 0)
    (he : osip_transaction_execute env t ev = some (t', e, r)) :
    ∃ pre, e = pre ++ [.tpErr t.ctx_type env.send, .kill t.ctx_type] ∧
      pre.countP Eff.isTpErr = 0 ∧ pre.countP Eff.isKill = 0 ∧
      t'.state = terminatedOf t.ctx_type := by
  have hne : env.send ≠ 0 := by omega
  cases hk : t.ctx_type
  · exact fails_ICT hk hsent hneg he
  · exact fails_IST hk hsent hne he
  · exact fails_NICT hk hsent hneg he
  · exact fails_NIST hk hsent hne he

/-- **C15**, server transactions: here every value other than 0 counts as a failure. -/
theorem c15_send_failure_server {env t ev t' e r}
    (hserver : t.ctx_type = .IST ∨ t.ctx_type = .NIST) (hsent : sends e ≠ [])
    (hneg : env.send ≠ 0)
    (he : osip_transaction_execute env t ev = some (t', e, r)) :
    ∃ pre, e = pre ++ [.tpErr t.ctx_type env.send, .kill t.ctx_type] ∧
      pre.countP Eff.isTpErr = 0 ∧ pre.countP Eff.isKill = 0 ∧
      t'.state = terminatedOf t.ctx_type := by
  rcases hserver with hk | hk <;> rw [hk]
  · exact fails_IST hk hsent hneg he
  · exact fails_NIST hk hsent hneg he

example : ∃ w, Reach .IST w ∧ (w.trace.countP Eff.isTpErr = 1 ∧ (sends w.trace).length = 1) :=
  Ex.reach_exists Ex.invite [.incoming Ex.invite, Ex.x, .outgoing (Ex.response 486 "UDP" "INVITE"),
    Ex.xf] (by decide +kernel)

end Osip
