import Verif.Fsm.Safe
import Verif.Fsm.Transport
import Verif.Fsm.Examples
import Verif.TimeProps

/-!
# Properties of the INVITE server transaction: C10, C11, C12
-/

namespace Osip

/-! ## Everything sent is a response of the application; the last one is remembered -/

def IstOnce (t : Tr) (tr : List Eff) : Prop :=
  tr.countP (Eff.isCbIn [.IST_INVITE_RECEIVED]) ≤ 1 ∧
  (t.state = .IST_PRE_PROCEEDING → tr.countP (Eff.isCbIn [.IST_INVITE_RECEIVED]) = 0)

theorem istOnce_exec {env t ev t' e r} (tr : List Eff) (hp : IstOnce t tr) (hk : t.ctx_type = .IST)
    (he : osip_transaction_execute env t ev = some (t', e, r)) : IstOnce t' (tr ++ e) := by
  fsm_exec he hk hs ht
  all_goals try (simpa [IstOnce, List.countP_append] using hp; done)
  fsm_prune hs
  all_goals simp only [IstOnce, hs] at hp ⊢
  all_goals repeat' split
  all_goals count_cbs []
  all_goals simp [-List.countP_eq_zero] at hp ⊢
  all_goals omega

/-- The last message sent is the last response of the application. -/
def IstLast (t : Tr) (tr : List Eff) : Prop :=
  (t.state ≠ .IST_TERMINATED → t.last_response = (sends tr).getLast?) ∧
  (t.state = .IST_PRE_PROCEEDING ∨ t.state = .IST_PROCEEDING →
    ∀ s ∈ sends tr, s.m.isStatus 1 = true)

theorem istLast_exec {env t ev t' e r} (tr : List Eff) (hp : IstLast t tr) (hi : IstInv t)
    (hk : t.ctx_type = .IST) (hev : EvOk ev)
    (he : osip_transaction_execute env t ev = some (t', e, r)) : IstLast t' (tr ++ e) := by
  have hst := (evOk_status hev).1
  have hl := hi.last
  have hpr := hi.prov
  fsm_exec he hk hs ht
  all_goals try (simpa [IstLast] using hp; done)
  fsm_prune hs
  all_goals try (simp [IstLast]; done)
  all_goals unfold IstLast at *
  all_goals simp [hs] at hp ⊢
  all_goals grind

theorem reach_istSends {O : Op → Prop} {w : World} (h : ReachO O .IST w) :
    IstOnce w.tr w.trace ∧ IstLast w.tr w.trace := by
  have := reach_inv (k := .IST) (P := fun t tr => IstInv t ∧ IstOnce t tr ∧ IstLast t tr) ?_ ?_ ?_ h
  · exact this.2
  · intro n1 n2 req t hi
    obtain ⟨_, _, h2, _, _⟩ := init_shape hi
    exact ⟨istInv_init hi, by simp [IstOnce], by simp [IstLast, h2]⟩
  · rintro t tr id ⟨h1, h2, h3⟩
    refine ⟨h1, ?_, by simpa [IstLast] using h3⟩
    simpa [IstOnce, List.countP_append, isCbIn_new] using h2
  · rintro env t tr ev t' e r ⟨h1, h2, h3⟩ hk hev he
    exact ⟨istInv_exec h1 hk hev he, istOnce_exec tr h2 hk he, istLast_exec tr h3 h1 hk hev he⟩

/-! ## C10 -/

/-- **C10** (every history): the INVITE is reported to the application as new at most once. -/
theorem c10_invite_reported_once {w : World} (h : Reach .IST w) :
    w.trace.countP (Eff.isCbIn [.IST_INVITE_RECEIVED]) ≤ 1 :=
  (reach_istSends h).1.1

/-- **C10** (every history). A retransmitted INVITE in PROCEEDING or COMPLETED makes the
transaction send exactly one message, the last response it sent before - the last one given by the
application - or nothing if no response was sent before. It is reported as a retransmission. -/
theorem c10_retransmission {env : Env} {w : World} (h : Reach .IST w)
    (hs : w.tr.state = .IST_PROCEEDING ∨ w.tr.state = .IST_COMPLETED) {ev : Ev} (hev : EvOk ev)
    (ht : ev.type = .RCV_REQINVITE) :
    ∃ t' e r, osip_transaction_execute env w.tr ev = some (t', e, r) ∧
      sends e = (sends w.trace).getLast?.toList ∧
      (callbacks e).head? = some (.IST_INVITE_RECEIVED_AGAIN, w.tr.orig_request) := by
  obtain ⟨t', e, r, he⟩ := exec_safe h env hev
  refine ⟨t', e, r, he, ?_⟩
  have hk := (reach_queue h).1
  have hi := reach_istInv h
  have hlast := (reach_istSends h).2.1 (by rcases hs with h | h <;> simp [h])
  have hne : ∀ r, w.tr.last_response = some r → r.m.vias ≠ [] := by
    rcases hs with h1 | h1
    · exact fun r hr => (hi.prov h1 r hr).1
    · obtain ⟨r, h2, h3, -⟩ := hi.last (.inl h1)
      intro r' hr'
      rw [h2] at hr'
      simp only [Option.some.injEq] at hr'
      exact hr' ▸ h3
  have hs0 := hs
  have ht0 := ht
  fsm_exec he hk hs ht
  all_goals try (rw [ht] at ht0; simp at ht0; done)
  fsm_prune hs
  all_goals try (simp [hs] at hs0; done)
  all_goals try (
    rcases hs0 with h1 | h1 <;> rw [h1, ht0, hk] at hs <;> exact absurd hs (by decide))
  all_goals rw [← hlast]
  all_goals simp
  all_goals grind

example : ∃ w, Reach .IST w ∧ (w.tr.state = .IST_COMPLETED ∧ (sends w.trace).length = 2 ∧
    w.queue.map (·.type) = [.RCV_REQINVITE]) :=
  Ex.reach_exists Ex.invite [.incoming Ex.invite, Ex.x, .outgoing (Ex.response 180 "UDP" "INVITE"),
    Ex.x, .outgoing (Ex.response 486 "UDP" "INVITE"), Ex.x, .incoming Ex.invite]
    (by decide +kernel)

/-! ## C11 -/

/-- The number of times timer G fired in COMPLETED. -/
def gFired (l : List Done) : Nat :=
  l.countP (fun d => d.state == .IST_COMPLETED && d.ev.type == .TIMEOUT_G)

/-- Timer G and I over an unreliable transport. -/
def TimerG (t : Tr) (l : List Done) : Prop :=
  (t.state ≠ .IST_TERMINATED → t.ist.timer_i_length = 5000) ∧
  (t.state = .IST_PRE_PROCEEDING ∨ t.state = .IST_PROCEEDING ∨ t.state = .IST_COMPLETED →
    t.ist.timer_g_length = backoff (gFired l)) ∧
  (t.state = .IST_PRE_PROCEEDING ∨ t.state = .IST_PROCEEDING → gFired l = 0)

theorem backoff_double (n : Nat) :
    (if backoff n * 2 > 4000 then 4000 else backoff n * 2) = backoff (n + 1) :=
  backoff_succ (n := n + 1) (by simp)

theorem timerG_exec {env t ev t' e r} {l : List Done} (hp : TimerG t l) (hk : t.ctx_type = .IST)
    (he : osip_transaction_execute env t ev = some (t', e, r)) :
    TimerG t' (l ++ [⟨t.state, ev, env.send⟩]) := by
  have hd2 : DEFAULT_T2 = 4000 := rfl
  have hb := backoff_double (gFired l)
  have hc : gFired (l ++ [⟨t.state, ev, env.send⟩]) = gFired l +
      (if t.state = .IST_COMPLETED ∧ ev.type = .TIMEOUT_G then 1 else 0) := by
    simp [gFired, List.countP_append, List.countP_cons]
  unfold TimerG at hp ⊢
  rw [hc]
  clear hc
  have hst : ∀ tt : State, t.state = .IST_COMPLETED → ev.type = .TIMEOUT_G →
      fsm_findmethod ev.type t.state (tableOf t.ctx_type) ≠ none := by
    intro _ h1 h2
    rw [h1, h2, hk]
    decide
  fsm_exec he hk hs ht
  fsm_prune hs
  all_goals try (simp [hs, ht] at hp ⊢; done)
  all_goals try (simpa [hs, ht] using hp; done)
  · obtain ⟨h1, h2, h3⟩ := hp
    simp only [hs] at h2
    refine ⟨fun _ => h1 (by simp [hs]), fun _ => ?_, by simp [hs]⟩
    dsimp only
    rw [h2 (by simp), hd2, hb]
    simp [hs, ht]
  · obtain ⟨h1, h2, h3⟩ := hp
    simp [hs, ht] at h1 h2 h3 ⊢
    exact ⟨h1, h2⟩
  · simp [hs, ht] at hp ⊢
    exact hp.1
  · simpa [ht] using hp
  · obtain ⟨h1, h2, h3⟩ := hp
    have : ¬ (t'.state = .IST_COMPLETED ∧ ev.type = .TIMEOUT_G) :=
      fun h => hst .IST_COMPLETED h.1 h.2 hs
    simp only [this, if_false, Nat.add_zero]
    exact ⟨h1, h2, h3⟩

theorem reach_timerG {O : Op → Prop} {w : World} (h : ReachFrom Unreliable O .IST w) :
    TimerG w.tr w.log := by
  refine reachFrom_inv_log (P := fun t _ l => TimerG t l) ?_ ?_ ?_ h
  · intro n1 n2 req t hu hi
    obtain ⟨p, hp, rfl⟩ := init_IST hi
    obtain ⟨p', hp', hn⟩ := hu
    rw [hp] at hp'
    simp only [Option.some.injEq] at hp'
    subst hp'
    rw [← isReliable_iff] at hn
    simp [TimerG, hn, gFired, backoff]
    decide
  · intro _ _ _ _ h
    exact h
  · intro env t tr l ev t' e r hp hk _ he
    exact timerG_exec hp hk he

/-- **C11** (unreliable transport, every history). A 3xx-6xx response of the application is sent
and starts timer G at exactly now + T1. -/
theorem c11_first {env : Env} {w : World} (h : ReachFrom Unreliable (fun _ => True) .IST w)
    (hs : w.tr.state = .IST_PROCEEDING) {ev : Ev} (hev : EvOk ev)
    (ht : ev.type = .SND_STATUS_3456XX) {resp : Ref} (hm : ev.sip = some resp)
    (hv : resp.m.vias ≠ []) (hsend : env.send = 0) (hn : env.now1.Normal) :
    ∃ t' e r, osip_transaction_execute env w.tr ev = some (t', e, r) ∧
      t'.state = .IST_COMPLETED ∧ sends e = [resp] ∧
      t'.ist.timer_g_start.micros = env.now1.micros + 500 * 1000 := by
  obtain ⟨t', e, r, he⟩ := exec_safe h.reach env hev
  have hk := (reach_queue h.reach).1
  have hl := (reach_timerG h).2.1 (by simp [hs])
  have h0 := (reach_timerG h).2.2 (by simp [hs])
  rw [h0] at hl
  have key : t'.state = .IST_COMPLETED ∧ sends e = [resp] ∧
      t'.ist.timer_g_start = add_gettimeofday env.now1 500 := by
    have hs0 := hs
    have ht0 := ht
    fsm_exec he hk hs ht
    all_goals try (rw [ht] at ht0; simp at ht0; done)
    all_goals try (rw [hs] at hs0; simp at hs0; done)
    all_goals try (rw [hs0, ht0, hk] at hs; exact absurd hs (by decide))
    all_goals simp_all
    all_goals have h5 : backoff 0 = 500 := by decide
    all_goals simp [h5]
  refine ⟨t', e, r, he, key.1, key.2.1, ?_⟩
  rw [key.2.2]
  exact (c27_add_exact_partial hn (by omega) (by omega)).1

/-- **C11** (unreliable transport, every history). When timer G fires for the `n+1`-th time in
COMPLETED, the last response is sent again and timer G is set to exactly
now + min(2^(n+1) * T1, T2). -/
theorem c11_unreliable {env : Env} {w : World}
    (h : ReachFrom Unreliable (fun _ => True) .IST w) (hs : w.tr.state = .IST_COMPLETED)
    {ev : Ev} (hev : EvOk ev) (ht : ev.type = .TIMEOUT_G) (hsend : env.send = 0)
    (hn : env.now1.Normal) :
    ∃ t' e r resp, osip_transaction_execute env w.tr ev = some (t', e, r) ∧
      (sends w.trace).getLast? = some resp ∧
      t'.state = .IST_COMPLETED ∧ sends e = [resp] ∧
      t'.ist.timer_g_start.micros = env.now1.micros + min (2 ^ (w.log.countP (fun d =>
        d.state == .IST_COMPLETED && d.ev.type == .TIMEOUT_G) + 1) * 500) 4000 * 1000 := by
  obtain ⟨t', e, r, he⟩ := exec_safe h.reach env hev
  have hk := (reach_queue h.reach).1
  have hl := (reach_timerG h).2.1 (by simp [hs])
  obtain ⟨resp, hresp, hv, -⟩ := (reach_istInv h.reach).last (.inl hs)
  have hlast := (reach_istSends h.reach).2.1 (by simp [hs])
  have hd2 : DEFAULT_T2 = 4000 := rfl
  have hb := backoff_double (gFired w.log)
  have h5 := backoff_pos (gFired w.log + 1)
  have key : t'.state = .IST_COMPLETED ∧ sends e = [resp] ∧
      t'.ist.timer_g_start = add_gettimeofday env.now1 (backoff (gFired w.log + 1)) := by
    have hs0 := hs
    have ht0 := ht
    fsm_exec he hk hs ht
    all_goals try (rw [ht] at ht0; simp at ht0; done)
    all_goals try (rw [hs] at hs0; simp at hs0; done)
    all_goals try (rw [hs0, ht0, hk] at hs; exact absurd hs (by decide))
    all_goals try (simp_all; done)
  refine ⟨t', e, r, resp, he, by rw [← hlast, hresp], key.1, key.2.1, ?_⟩
  rw [key.2.2]
  exact (c27_add_exact_partial hn (by omega) (by omega)).1

example : ∃ w, ReachFrom Unreliable TimersInOrder .IST w ∧ (w.tr.state = .IST_COMPLETED ∧
    w.queue = [⟨.TIMEOUT_G, none⟩] ∧ gFired w.log = 3) :=
  Ex.reachFrom_exists Ex.invite ⟨"UDP".toList, rfl, by rw [← isReliable_iff]; decide⟩
    [.incoming Ex.invite, Ex.x, .outgoing (Ex.response 486 "UDP" "INVITE"),
      Ex.x, .tick ⟨1010, 0⟩, Ex.x, .tick ⟨1010, 0⟩, Ex.x, .tick ⟨1010, 0⟩, Ex.x, .tick ⟨1010, 0⟩]
    (by simp [TimersInOrder, Ex.x]) (by decide +kernel)

/-- **C11** (every history). An ACK received in COMPLETED or CONFIRMED moves the transaction to
CONFIRMED and starts timer I at exactly now + T4; nothing is sent. -/
theorem c11_ack {env : Env} {w : World}
    (h : ReachFrom Unreliable (fun _ => True) .IST w)
    (hs : w.tr.state = .IST_COMPLETED ∨ w.tr.state = .IST_CONFIRMED)
    {ev : Ev} (hev : EvOk ev) (ht : ev.type = .RCV_REQACK) (hn : env.now1.Normal) :
    ∃ t' e r, osip_transaction_execute env w.tr ev = some (t', e, r) ∧
      t'.state = .IST_CONFIRMED ∧ sends e = [] ∧
      t'.ist.timer_i_start.micros = env.now1.micros + 5000 * 1000 := by
  obtain ⟨t', e, r, he⟩ := exec_safe h.reach env hev
  have hk := (reach_queue h.reach).1
  have hl := (reach_timerG h).1 (by rcases hs with h | h <;> simp [h])
  have key : t'.state = .IST_CONFIRMED ∧ sends e = [] ∧
      t'.ist.timer_i_start = add_gettimeofday env.now1 5000 := by
    have hs0 := hs
    have ht0 := ht
    fsm_exec he hk hs ht
    all_goals try (rw [ht] at ht0; simp at ht0; done)
    all_goals try (simp [hl]; done)
    rcases hs0 with h1 | h1 <;> rw [h1, ht0, hk] at hs <;> exact absurd hs (by decide)
  refine ⟨t', e, r, he, key.1, key.2.1, ?_⟩
  rw [key.2.2]
  exact (c27_add_exact_partial hn (by omega) (by omega)).1

/-- An ACK was received after the final response was sent. -/
def AckProcessed (w : World) : Prop :=
  ∃ d ∈ w.log, d.state = .IST_COMPLETED ∧ d.ev.type = .RCV_REQACK

theorem ist_acked_exec {env t ev t' e r} (hk : t.ctx_type = .IST)
    (he : osip_transaction_execute env t ev = some (t', e, r)) :
    (t.state = .IST_COMPLETED → ev.type = .RCV_REQACK → t'.state = .IST_CONFIRMED) ∧
    (t.state = .IST_CONFIRMED ∨ t.state = .IST_TERMINATED →
      (t'.state = .IST_CONFIRMED ∨ t'.state = .IST_TERMINATED) ∧ sends e = []) := by
  fsm_exec he hk hs ht
  all_goals try (simp [hs, ht]; done)
  · simp [ht]
  · refine ⟨fun h1 h2 => ?_, fun h => ⟨h, by simp⟩⟩
    rw [h1, h2, hk] at hs
    exact absurd hs (by decide)

/-- **C11** (after the ACK). Once an ACK was received in COMPLETED the transaction sends nothing
more, in any later history, even if timer G events are still queued. -/
theorem c11_no_send_after_ack {w w' : World} (h : Reach .IST w) (hp : AckProcessed w)
    {ops : List Op} (hr : w.run ops = some w') :
    ∃ more, w'.trace = w.trace ++ more ∧ sends more = [] := by
  have hst : w.tr.state = .IST_CONFIRMED ∨ w.tr.state = .IST_TERMINATED := by
    refine reach_inv_log (k := .IST) (P := fun t _ l =>
      ((∃ d ∈ l, d.state = .IST_COMPLETED ∧ d.ev.type = .RCV_REQACK) →
        (t.state = .IST_CONFIRMED ∨ t.state = .IST_TERMINATED))) ?_ ?_ ?_ h hp
    · simp
    · intro t tr l id h
      exact h
    · rintro env t tr l ev t' e r h2 hk hev he
      obtain ⟨h3, h4⟩ := ist_acked_exec hk he
      rintro ⟨d, hd, hd1, hd2⟩
      rcases List.mem_append.1 hd with hd | hd
      · exact (h4 (h2 ⟨d, hd, hd1, hd2⟩)).1
      · simp at hd; subst hd
        exact .inl (h3 hd1 hd2)
  have := run_more_exec (k := .IST)
    (I := fun t => t.state = .IST_CONFIRMED ∨ t.state = .IST_TERMINATED)
    (R := fun x => ∀ s ∈ sends [x], False) (by simp) ?_ h hst hr
  · obtain ⟨-, e, he, hR⟩ := this
    refine ⟨e, he, ?_⟩
    rw [List.eq_nil_iff_forall_not_mem]
    exact forall_sends.2 hR
  · rintro env t ev t' e r h2 hk hev he
    obtain ⟨h3, h4⟩ := ist_acked_exec hk he
    refine ⟨(h4 h2).1, forall_sends.1 ?_⟩
    simp [(h4 h2).2]

example : ∃ w, Reach .IST w ∧ (w.tr.state = .IST_CONFIRMED ∧
    w.queue.map (·.type) = [.TIMEOUT_G, .RCV_REQINVITE] ∧
    w.log.any (fun d => d.state == .IST_COMPLETED && d.ev.type == .RCV_REQACK)) :=
  Ex.reach_exists Ex.invite
    [.incoming Ex.invite, Ex.x, .outgoing (Ex.response 486 "UDP" "INVITE"),
      Ex.x, .incoming (Ex.request "UDP" "ACK"), .tick ⟨1010, 0⟩, .incoming Ex.invite, Ex.x]
    (by decide +kernel)

/-- **C11** (reliable transport, every history in which timer events come from the library's timer
loop). Timer G is never armed and never fires: no timer G event is queued or executed. -/
theorem c11_reliable {w : World} (h : ReachFrom Reliable TimersInOrder .IST w) :
    w.tr.ist.timer_g_start.sec = -1 ∧ (∀ ev ∈ w.queue, ev.type ≠ .TIMEOUT_G) ∧
      ∀ d ∈ w.log, d.ev.type ≠ .TIMEOUT_G := by
  have := reachFrom_inv (I := fun w => w.tr.ist.timer_g_length = -1 ∧
    w.tr.ist.timer_g_start.sec = -1 ∧ (∀ ev ∈ w.queue, ev.type ≠ .TIMEOUT_G) ∧
      ∀ d ∈ w.log, d.ev.type ≠ .TIMEOUT_G) ?_ ?_ h
  · exact this.2
  · intro n1 n2 req t hu hi
    obtain ⟨p, hp, rfl⟩ := init_IST hi
    obtain ⟨p', hp', hn⟩ := hu
    rw [hp] at hp'
    simp only [Option.some.injEq] at hp'
    subst hp'
    rw [← isReliable_iff] at hn
    simp [hn, World.init]
  · rintro w o w' hre ⟨h1, h2, h3, h4⟩ ho hs
    have hk := (reach_queue hre).1
    have hq : ∀ ev ∈ w'.queue, ev.type ≠ .TIMEOUT_G := by
      rcases step_queue hs with ⟨ev, hq, -, hev⟩ | ⟨hq, -⟩ | ⟨ev, hq⟩
      · rw [hq]
        intro ev' hev'
        rcases List.mem_append.1 hev' with h | h
        · exact h3 _ h
        · simp at h; subst h
          rcases hev with hev | hev | ⟨now, -, hev⟩ | hev
          · intro h; rw [h] at hev; simp [EvType.isMsg] at hev
          · rw [hev]; simp
          · intro h; rw [h] at hev; simp [needTimer, h2] at hev
          · exact absurd hev (ho _)
      · rw [hq]; exact h3
      · intro ev' hev'; exact h3 _ (by rw [hq]; exact List.mem_cons_of_mem _ hev')
    rcases step_cases hs with ⟨q, rfl, _⟩ | ⟨ev, m, _, hok, _, rfl⟩ |
      ⟨send, now1, now2, ev, q, t, e, r, _, hqq, he, rfl⟩
    · exact ⟨h1, h2, hq, h4⟩
    · exact ⟨h1, h2, hq, h4⟩
    · have hev := h3 ev (by simp [hqq])
      refine ⟨?_, ?_, hq, ?_⟩
      · clear hs
        fsm_exec he hk hs ht
        all_goals try (exact h1)
        all_goals exact absurd ht hev
      · clear hs
        fsm_exec he hk hs ht
        all_goals try (exact h2)
        all_goals try (exact absurd ht hev)
        simp [h1, h2]
      · intro d hd
        rcases List.mem_append.1 hd with h | h
        · exact h4 _ h
        · simp at h; subst h; exact hev

example : ∃ w, ReachFrom Reliable TimersInOrder .IST w ∧ (w.tr.state = .IST_COMPLETED ∧
    w.queue = []) :=
  Ex.reachFrom_exists Ex.inviteTcp ⟨"TCP".toList, rfl, by rw [← isReliable_iff]; decide⟩
    [.incoming Ex.inviteTcp, Ex.x, .outgoing (Ex.response 486 "TCP" "INVITE"),
      Ex.x, .tick ⟨1010, 0⟩]
    (by simp [TimersInOrder, Ex.x]) (by decide +kernel)

/-! ## C12 -/

/-- What is sent: after a response that is not 1xx only that response; nothing after a 2xx. -/
def OneFinal (l : List Ref) : Prop :=
  ∀ pre r post, l = pre ++ r :: post → r.m.isStatus 1 = false →
    (∀ s ∈ post, s = r) ∧ (r.m.isStatus 2 = true → post = [])

theorem oneFinal_snoc {l : List Ref} {x : Ref} (h : OneFinal l)
    (hx : ∀ r ∈ l, r.m.isStatus 1 = false → x = r ∧ r.m.isStatus 2 = false) :
    OneFinal (l ++ [x]) := by
  intro pre r post he hr
  rcases List.eq_nil_or_concat post with rfl | ⟨post', y, rfl⟩
  · simp
  · rw [List.concat_eq_append, ← List.cons_append, ← List.append_assoc] at he
    obtain ⟨rfl, h1⟩ := List.append_inj' he rfl
    simp only [List.cons.injEq, and_true] at h1
    subst h1
    obtain ⟨h1, h2⟩ := h _ _ _ rfl hr
    obtain ⟨h3, h4⟩ := hx r (by simp) hr
    refine ⟨?_, by simp [h4]⟩
    simp only [List.concat_eq_append, List.mem_append, List.mem_singleton]
    rintro s (hs | hs)
    · exact h1 _ hs
    · exact hs.trans h3

/-- Invariant for C12. -/
def IstFinal (t : Tr) (tr : List Eff) : Prop :=
  OneFinal (sends tr) ∧
  (t.state = .IST_COMPLETED ∨ t.state = .IST_CONFIRMED →
    ∀ s ∈ sends tr, s.m.isStatus 1 = true ∨ t.last_response = some s)

theorem istFinal_exec {env t ev t' e r} (tr : List Eff) (hp : IstFinal t tr) (hi : IstInv t)
    (hl : IstLast t tr) (hk : t.ctx_type = .IST) (hev : EvOk ev)
    (he : osip_transaction_execute env t ev = some (t', e, r)) : IstFinal t' (tr ++ e) := by
  have hst := (evOk_status hev).1
  have h1 := hl.2
  have h2 := hp.2
  have h3 := hi.last
  have hone := hp.1
  fsm_exec he hk hs ht
  fsm_prune hs
  all_goals try (simpa [IstFinal, hs] using hp; done)
  all_goals try (simpa [IstFinal, hs] using hp.1; done)
  iterate 2 (rotate_left 1)
  all_goals constructor
  all_goals simp only [sends_append, sends_cons_send, sends_cons_cb, sends_cons_tpErr,
    sends_cons_kill, sends_nil, sends_freeOpt, List.nil_append, List.append_nil]
  all_goals try refine oneFinal_snoc hone ?_
  all_goals grind

theorem reach_istFinal {w : World} (h : Reach .IST w) : IstFinal w.tr w.trace := by
  have := reach_inv (k := .IST) (P := fun t tr => IstInv t ∧ IstLast t tr ∧ IstFinal t tr) ?_ ?_ ?_ h
  · exact this.2.2
  · intro n1 n2 req t hi
    obtain ⟨_, _, h2, _, _⟩ := init_shape hi
    exact ⟨istInv_init hi, by simp [IstLast, h2], by simp [IstFinal, OneFinal]⟩
  · rintro t tr id ⟨h1, h2, h3⟩
    exact ⟨h1, by simpa [IstLast] using h2, by simpa [IstFinal] using h3⟩
  · rintro env t tr ev t' e r ⟨h1, h2, h3⟩ hk hev he
    exact ⟨istInv_exec h1 hk hev he, istLast_exec tr h2 h1 hk hev he,
      istFinal_exec tr h3 h1 h2 hk hev he⟩

/-- **C12** (every history). Let `r` be a message the transaction sent that is not a 1xx. Every
message sent after it is `r` again, and if `r` is a 2xx nothing is sent after it. -/
theorem c12_one_final {w : World} (h : Reach .IST w) {pre post : List Ref} {r : Ref}
    (hs : sends w.trace = pre ++ r :: post) (hr : r.m.isStatus 1 = false) :
    (∀ s ∈ post, s = r) ∧ (r.m.isStatus 2 = true → post = []) :=
  (reach_istFinal h).1 _ _ _ hs hr

/-- **C12** (every history). A transaction that sent a 2xx is terminated. -/
theorem c12_terminated_after_2xx {w : World} (h : Reach .IST w) {r : Ref}
    (hs : r ∈ sends w.trace) (hr : r.m.isStatus 2 = true) : w.tr.state = .IST_TERMINATED := by
  have h1 := reach_istInv h
  have h2 := (reach_istSends h).2.2
  have h3 := (reach_istFinal h).2
  have h12 : r.m.isStatus 1 = false := by
    unfold Msg.isStatus at *
    simp at *
    omega
  rcases h1.states with hst | hst | hst | hst | hst
  · have := h2 (.inl hst) r hs; simp [h12] at this
  · have := h2 (.inr hst) r hs; simp [h12] at this
  · rcases h3 (.inl hst) r hs with h4 | h4
    · simp [h12] at h4
    · obtain ⟨r', h5, -, -, -, h6⟩ := h1.last (.inl hst)
      rw [h4] at h5
      simp at h5
      subst h5
      simp [hr] at h6
  · rcases h3 (.inr hst) r hs with h4 | h4
    · simp [h12] at h4
    · obtain ⟨r', h5, -, -, -, h6⟩ := h1.last (.inr hst)
      rw [h4] at h5
      simp at h5
      subst h5
      simp [hr] at h6
  · exact hst

example : ∃ w, Reach .IST w ∧ ((sends w.trace).map (·.m.status_code) = [180, 486, 486, 486] ∧
    w.log.length = 6) :=
  Ex.reach_exists Ex.invite
    [.incoming Ex.invite, Ex.x, .outgoing (Ex.response 180 "UDP" "INVITE"), Ex.x,
      .outgoing (Ex.response 486 "UDP" "INVITE"), Ex.x, .outgoing (Ex.response 200 "UDP" "INVITE"),
      Ex.x, .incoming Ex.invite, Ex.x, .tick ⟨1010, 0⟩, Ex.x]
    (by decide +kernel)

example : ∃ w, Reach .IST w ∧ ((sends w.trace).map (·.m.status_code) = [180, 200] ∧
    w.log.length = 5 ∧ w.tr.state = .IST_TERMINATED) :=
  Ex.reach_exists Ex.invite
    [.incoming Ex.invite, Ex.x, .outgoing (Ex.response 180 "UDP" "INVITE"), Ex.x,
      .outgoing (Ex.response 200 "UDP" "INVITE"), Ex.x, .outgoing (Ex.response 200 "UDP" "INVITE"),
      Ex.x, .incoming Ex.invite, Ex.x]
    (by decide +kernel)

end Osip
