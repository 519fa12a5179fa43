import Verif.Fsm.Safe
import Verif.Fsm.Transport
import Verif.TimeProps

/-!
# Timer A of the INVITE client transaction: C07
-/

namespace Osip

/-- Timer A while nothing has been received. -/
def TimerA (t : Tr) (tr : List Eff) : Prop :=
  (t.state = .ICT_PRE_CALLING → t.ict.timer_a_length = 500 ∧ sends tr = []) ∧
  (t.state = .ICT_CALLING → ∀ r, t.orig_request = some r → Unreliable r.m →
    t.ict.timer_a_length = 2 ^ ((sends tr).length - 1) * 500 ∧ sends tr ≠ [])

theorem double_pow {n : Nat} {l : Int} (h0 : n ≠ 0) (h : l = 2 ^ (n - 1) * 500) :
    l * 2 = 2 ^ n * 500 := by
  obtain ⟨k, rfl⟩ := Nat.exists_eq_succ_of_ne_zero h0
  rw [h]
  simp only [Nat.succ_eq_add_one, Nat.add_sub_cancel, Int.pow_succ]
  omega

theorem timerA_exec {env t ev t' e r} (tr : List Eff) (hp : TimerA t tr) (hk : t.ctx_type = .ICT)
    (he : osip_transaction_execute env t ev = some (t', e, r)) : TimerA t' (tr ++ e) := by
  fsm_exec he hk hs ht
  all_goals try (simpa [TimerA] using hp; done)
  all_goals unfold TimerA at hp ⊢
  all_goals try (simp [hs]; done)
  all_goals
    refine ⟨by simp [hs], fun hcal r0 hr0 hu => ?_⟩
    dsimp only at hr0 ⊢
  · rename_i hpr hrel
    rw [hr0] at hpr
    rw [unreliable_proto hu hpr] at hrel
    simp at hrel
  · simp [hp.1 hs]
  · simp [hp.1 hs]
  · rename_i hpr
    rw [hr0] at hpr
    obtain ⟨h1, h2⟩ := hp.2 hs r0 hr0 hu
    simp only [unreliable_proto hu hpr, Bool.false_eq_true, if_false, sends_append, sends_cons_send,
      sends_cons_cb, sends_nil, List.length_append, List.length_singleton, Nat.add_sub_cancel]
    exact ⟨double_pow (by simpa using h2) h1, by simp⟩
  · obtain ⟨h1, h2⟩ := hp.2 hs r0 hr0 hu
    simp only [sends_append, sends_cons_send,
      sends_nil, List.length_append, List.length_singleton, Nat.add_sub_cancel]
    exact ⟨double_pow (by simpa using h2) h1, by simp⟩

theorem timerA_init {n1 n2 req t} (h : transactionInit .ICT n1 n2 req = some (.ok t)) :
    TimerA t [] := by
  obtain ⟨p, ho, po, -, -, rfl⟩ := init_ICT h
  exact ⟨fun _ => ⟨rfl, rfl⟩, by simp⟩

theorem reach_timerA {O : Op → Prop} {w : World} (h : ReachO O .ICT w) : TimerA w.tr w.trace := by
  refine reach_inv (k := .ICT) (P := TimerA) (fun _ _ _ _ h => timerA_init h) ?_ ?_ h
  · intro t tr id hp
    simpa [TimerA] using hp
  · intro env t tr ev t' e r hp hk _ he
    exact timerA_exec tr hp hk he

/-- **C07** (unreliable transport, every history). In CALLING, when timer A fires for the `n`-th
time, i.e. after the INVITE was sent `n` times, the INVITE is sent again and timer A is set to
now + 2^n * T1, which is exact as long as that is less than 1000 seconds. -/
theorem c07_unreliable {env : Env} {w : World} (h : Reach .ICT w) (hs : w.tr.state = .ICT_CALLING)
    {orig : Ref} (ho : w.tr.orig_request = some orig) (hu : Unreliable orig.m) {ev : Ev}
    (hev : EvOk ev) (ht : ev.type = .TIMEOUT_A) (hsend : 0 ≤ env.send) :
    ∃ t' e r, osip_transaction_execute env w.tr ev = some (t', e, r) ∧
      t'.state = .ICT_CALLING ∧ sends e = [orig] ∧
      t'.ict.timer_a_start = add_gettimeofday env.now1 (2 ^ (sends w.trace).length * 500) ∧
      (env.now1.Normal → (2 : Int) ^ (sends w.trace).length * 500 < 1000000 →
        t'.ict.timer_a_start.micros =
          env.now1.micros + 2 ^ (sends w.trace).length * 500 * 1000) := by
  obtain ⟨t', e, r, he⟩ := exec_safe h env hev
  obtain ⟨h1, h2⟩ := (reach_timerA h).2 hs orig ho hu
  have hd := double_pow (by simpa using h2) h1
  have hk := (reach_queue h).1
  have key : t'.state = .ICT_CALLING ∧ sends e = [orig] ∧
      t'.ict.timer_a_start = add_gettimeofday env.now1 (2 ^ (sends w.trace).length * 500) := by
    have hs0 := hs
    have ht0 := ht
    fsm_exec he hk hs ht
    all_goals try (rw [ht] at ht0; simp at ht0; done)
    all_goals try (omega)
    all_goals try (rw [hs0, ht0, hk] at hs; exact absurd hs (by decide))
    all_goals try (rename_i hpr; rw [ho] at hpr; simp [topViaProto, Unreliable, Msg.transport] at hpr hu
                   split at hpr <;> simp_all; done)
    · rename_i o ho' _ _ _ p hpr
      rw [ho] at ho' hpr
      simp only [Option.some.injEq] at ho'
      subst ho'
      simp [unreliable_proto hu hpr, hd, hs]
    · rename_i o ho' _ _
      rw [ho] at ho'
      simp only [Option.some.injEq] at ho'
      subst ho'
      simp [hd, hs]
  refine ⟨t', e, r, he, key.1, key.2.1, key.2.2, fun hn hlt => ?_⟩
  rw [key.2.2]
  exact (c27_add_exact_partial hn (by
    have : (0 : Int) < 2 ^ (sends w.trace).length := Int.pow_pos (by omega)
    omega) hlt).1

example : ∃ w, Reach .ICT w ∧ (w.tr.state = .ICT_CALLING ∧ (sends w.trace).length = 3 ∧
    w.queue = [⟨.TIMEOUT_A, none⟩] ∧ w.tr.orig_request = some ⟨0, Ex.invite⟩) :=
  Ex.reach_exists Ex.invite [.outgoing Ex.invite, Ex.x, .tick ⟨1010, 0⟩, Ex.x, .tick ⟨1010, 0⟩,
    Ex.x, .tick ⟨1010, 0⟩] (by decide +kernel)
example : Unreliable Ex.invite ∧ Reliable Ex.inviteTcp :=
  ⟨⟨"UDP".toList, by decide, by unfold ReliableName; decide⟩,
    ⟨"TCP".toList, by decide, by unfold ReliableName; decide⟩⟩

/-- A queued timer A event is always the oldest event. -/
theorem timerA_head {w : World} (h : ReachO TimersInOrder .ICT w) :
    ∀ ev ∈ w.queue.tail, ev.type ≠ .TIMEOUT_A := by
  refine reachO_inv (I := fun w => ∀ ev ∈ w.queue.tail, ev.type ≠ .TIMEOUT_A) ?_ ?_ h
  · intro n1 n2 req t _
    simp [World.init]
  · intro w o w' hre hi ho hs
    have hk := (reach_queue hre).1
    have hadd : ∀ (ev : Ev), ev.type ≠ .TIMEOUT_A → ∀ x ∈ (w.queue ++ [ev]).tail,
        x.type ≠ .TIMEOUT_A := by
      intro ev hev x hx
      cases hq : w.queue with
      | nil => simp [hq] at hx
      | cons a l =>
        simp only [hq, List.cons_append, List.tail_cons, List.mem_append, List.mem_singleton] at hx
        rcases hx with hx | hx
        · exact hi x (by simpa [hq] using hx)
        · exact hx ▸ hev
    cases o with
    | incoming m =>
      simp only [World.step] at hs
      split at hs <;> simp only [Option.some.injEq] at hs <;> subst hs
      · refine hadd _ ?_
        simp only [evt_type_incoming]; repeat' split
        all_goals simp
      · exact hi
    | outgoing m =>
      simp only [World.step] at hs
      split at hs <;> simp only [Option.some.injEq] at hs <;> subst hs
      · refine hadd _ ?_
        simp only [evt_type_outgoing]; repeat' split
        all_goals simp
      · exact hi
    | tick now =>
      simp only [World.step, Option.some.injEq] at hs
      subst hs
      dsimp only
      by_cases hq : w.queue = []
      · rcases timersExecute_cases w.tr w.queue now with h0 | ⟨t, -, -, -, -, h0⟩ <;>
          rw [h0, hq] <;> simp
      · have : timersExecute w.tr w.queue now = [] := by
          unfold timersExecute
          rw [if_pos ⟨hk, hq⟩]
        rw [this, List.append_nil]
        exact hi
    | timer t => exact absurd rfl (ho t)
    | kill =>
      simp only [World.step, Option.some.injEq] at hs
      subst hs
      exact hadd _ (by simp)
    | exec send n1 n2 =>
      rcases step_cases hs with ⟨q, rfl, hq0⟩ | ⟨_, _, _, _, h, _⟩ |
        ⟨_, _, _, ev, q, t, e, r, _, hqq, he, rfl⟩
      · simp only [World.step] at hs
        cases hq : w.queue with
        | nil =>
          simp only [hq, Option.some.injEq] at hs
          have : q = [] := by
            have := congrArg World.queue hs
            simpa [hq] using this.symm
          subst this
          simp
        | cons a l =>
          simp only [hq, Option.bind_eq_bind, Option.bind_eq_some_iff, Prod.exists] at hs
          obtain ⟨t, e, r, -, hs⟩ := hs
          have := congrArg World.queue (Option.some.inj hs)
          have := congrArg List.length this
          simp at this
          omega
      · simp at h
      · intro x hx
        exact hi x (by rw [hqq]; exact List.mem_of_mem_tail hx)

/-- Nothing but the ACK is sent by an event other than timer A after the INVITE was sent, and timer
A stays off. -/
theorem timerA_off_exec {env t ev t' e r} (hi : IctInv t) (hk : t.ctx_type = .ICT)
    (hs : t.state ≠ .ICT_PRE_CALLING) (ht : ev.type ≠ .TIMEOUT_A)
    (ha : t.ict.timer_a_start.sec = -1)
    (he : osip_transaction_execute env t ev = some (t', e, r)) :
    t'.state ≠ .ICT_PRE_CALLING ∧ t'.ict.timer_a_start.sec = -1 ∧
    ∀ s ∈ sends e, s.m.sip_method = some "ACK".toList := by
  have hca := fun o r a h => (@create_ack_method o r a h).1
  have hia := hi.isack
  have hs0 := hs
  have ht0 := ht
  fsm_exec he hk hs ht
  all_goals try (exact absurd hs hs0)
  all_goals try (exact absurd ht ht0)
  all_goals try (simp [hs0, ha]; done)
  all_goals try (simp [hs, hs0, ha]; done)
  all_goals try (refine ⟨by simp, by simpa using ha, ?_⟩; simp; apply hca; assumption)
  all_goals try (refine ⟨by simp, by simpa using ha, ?_⟩; simp; apply hia; assumption)

/-- A timer A event is not produced when timer A is off. -/
theorem timerA_off_tick {t : Tr} {q : List Ev} {now : TimeVal} (h : t.ict.timer_a_start.sec = -1) :
    ∀ ev ∈ timersExecute t q now, ev.type ≠ .TIMEOUT_A := by
  rcases timersExecute_cases t q now with h0 | ⟨ty, -, -, -, hn, h0⟩
  · simp [h0]
  · rw [h0]
    simp only [List.mem_singleton, forall_eq]
    rintro rfl
    simp [needTimer, h] at hn

theorem timerA_sent_exec {env t ev t' e r} {orig : Ref} (hk : t.ctx_type = .ICT)
    (he : osip_transaction_execute env t ev = some (t', e, r)) (h0 : env.send = 0)
    (hsent : orig ∈ sends e) (hrel : Reliable orig.m) (hc : t'.state = .ICT_CALLING) :
    t'.ict.timer_a_start.sec = -1 := by
  fsm_exec he hk hs ht
  all_goals try (simp at hc; done)
  all_goals try (simp at hsent; done)
  all_goals try (rename_i hne; exact absurd h0 hne)
  all_goals try (rfl)
  all_goals
    simp only [sends_cons_send, sends_cons_cb, sends_nil, List.mem_singleton] at hsent
    subst hsent
  · rename_i p hpr hnr hsip
    rw [hsip] at hpr
    exact absurd (reliable_proto hrel hpr) hnr
  · rename_i p hpr hsip
    rw [hsip] at hpr
    simp [reliable_proto hrel hpr, TimeVal.off]

/-- **C07** (reliable transport). When an event made the transaction send the INVITE over TCP, TLS
or SCTP, the send succeeded and the transaction waits for an answer, timer A is off. It stays off
in every later history in which the library's own timer loop queues the timer events, and the
INVITE is not sent again: what is sent later is the ACK. -/
theorem c07_reliable {w w1 : World} (h : ReachO TimersInOrder .ICT w) {n1 n2 : TimeVal}
    (hx : w.step (.exec 0 n1 n2) = some w1) {orig : Ref}
    (hsent : orig ∈ sends (w1.trace.drop w.trace.length))
    (hrel : Reliable orig.m) (hc : w1.tr.state = .ICT_CALLING) :
    w1.tr.ict.timer_a_start.sec = -1 ∧
    ∀ ops w2, (∀ o ∈ ops, TimersInOrder o) → w1.run ops = some w2 →
      w2.tr.ict.timer_a_start.sec = -1 ∧
      ∃ more, w2.trace = w1.trace ++ more ∧
        ∀ s ∈ sends more, s.m.sip_method = some "ACK".toList := by
  have hhead := timerA_head h
  have hre1 := h.step (o := .exec 0 n1 n2) (by intro t; simp) hx
  have key : w1.tr.ict.timer_a_start.sec = -1 ∧ ∀ ev ∈ w1.queue, ev.type ≠ .TIMEOUT_A := by
    rcases step_cases hx with ⟨q, rfl, _⟩ | ⟨_, _, _, _, h, _⟩ |
      ⟨_, _, _, ev, q, t, e, r, heq, hqq, he, rfl⟩
    · simp at hsent
    · simp at h
    · refine ⟨?_, by simpa [hqq] using hhead⟩
      simp only [Op.exec.injEq] at heq
      obtain ⟨rfl, rfl, rfl⟩ := heq
      have hk := (reach_queue h).1
      simp only [List.drop_left] at hsent
      exact timerA_sent_exec hk he rfl hsent hrel hc
  refine ⟨key.1, fun ops w2 ho hrun => ?_⟩
  have hgo : ∀ ops (w2 w3 : World), (∀ o ∈ ops, TimersInOrder o) → ReachO TimersInOrder .ICT w2 →
      w2.tr.state ≠ .ICT_PRE_CALLING → w2.tr.ict.timer_a_start.sec = -1 →
      (∀ ev ∈ w2.queue, ev.type ≠ .TIMEOUT_A) → w2.run ops = some w3 →
      w3.tr.ict.timer_a_start.sec = -1 ∧ ∃ more, w3.trace = w2.trace ++ more ∧
        ∀ s ∈ sends more, s.m.sip_method = some "ACK".toList := by
    intro ops
    induction ops with
    | nil =>
      intro w2 w3 _ _ _ ha _ h
      simp only [World.run, Option.some.injEq] at h
      subst h
      exact ⟨ha, [], by simp, by simp⟩
    | cons o os ih =>
      intro w2 w4 ho hre hst ha hq hrun
      simp only [World.run, Option.bind_eq_bind, Option.bind_eq_some_iff] at hrun
      obtain ⟨w3, h1, h2⟩ := hrun
      have hO := ho o (by simp)
      have hre3 := hre.step hO h1
      have hk := (reach_queue hre).1
      have : w3.tr.state ≠ .ICT_PRE_CALLING ∧ w3.tr.ict.timer_a_start.sec = -1 ∧
          (∀ ev ∈ w3.queue, ev.type ≠ .TIMEOUT_A) ∧ ∃ more, w3.trace = w2.trace ++ more ∧
          ∀ s ∈ sends more, s.m.sip_method = some "ACK".toList := by
        have hadd : ∀ (ev : Ev), ev.type ≠ .TIMEOUT_A → ∀ x ∈ w2.queue ++ [ev],
            x.type ≠ .TIMEOUT_A := by
          intro ev hev x hx
          rcases List.mem_append.1 hx with hx | hx
          · exact hq x hx
          · simp at hx; exact hx ▸ hev
        cases o with
        | incoming m =>
          simp only [World.step] at h1
          split at h1 <;> simp only [Option.some.injEq] at h1 <;> subst h1
          · refine ⟨hst, ha, hadd _ ?_, [_], rfl, by simp⟩
            simp only [evt_type_incoming]; repeat' split
            all_goals simp
          · exact ⟨hst, ha, hq, [], by simp, by simp⟩
        | outgoing m =>
          simp only [World.step] at h1
          split at h1 <;> simp only [Option.some.injEq] at h1 <;> subst h1
          · refine ⟨hst, ha, hadd _ ?_, [_], rfl, by simp⟩
            simp only [evt_type_outgoing]; repeat' split
            all_goals simp
          · exact ⟨hst, ha, hq, [], by simp, by simp⟩
        | tick now =>
          simp only [World.step, Option.some.injEq] at h1
          subst h1
          refine ⟨hst, ha, fun x hx => ?_, [], by simp, by simp⟩
          rcases List.mem_append.1 hx with hx | hx
          · exact hq x hx
          · exact timerA_off_tick ha x hx
        | timer t => exact absurd rfl (hO t)
        | kill =>
          simp only [World.step, Option.some.injEq] at h1
          subst h1
          exact ⟨hst, ha, hadd _ (by simp), [], by simp, by simp⟩
        | exec send n1 n2 =>
          simp only [World.step] at h1
          cases hqq : w2.queue with
          | nil =>
            simp only [hqq, Option.some.injEq] at h1
            subst h1
            exact ⟨hst, ha, hq, [], by simp, by simp⟩
          | cons ev q =>
            simp only [hqq, Option.bind_eq_bind, Option.bind_eq_some_iff, Prod.exists,
              Option.pure_def, Option.some.injEq] at h1
            obtain ⟨t, e, r, he, rfl⟩ := h1
            obtain ⟨a1, a2, a3⟩ := timerA_off_exec (reach_ictInv hre) hk hst
              (hq ev (by simp [hqq])) ha he
            exact ⟨a1, a2, fun x hx => hq x (by simp [hqq, hx]), e, rfl, a3⟩
      obtain ⟨b1, b2, b3, more, hm, hack⟩ := this
      obtain ⟨c1, more2, hm2, hack2⟩ := ih w3 w4 (fun o h => ho o (by simp [h])) hre3 b1 b2 b3 h2
      refine ⟨c1, more ++ more2, by rw [hm2, hm, List.append_assoc], ?_⟩
      intro s hs
      rw [sends_append] at hs
      rcases List.mem_append.1 hs with hs | hs
      · exact hack s hs
      · exact hack2 s hs
  exact hgo ops w1 w2 ho hre1 (by rw [hc]; simp) key.1 key.2 hrun

example : ∃ w, Reach .ICT w ∧ (w.tr.state = .ICT_CALLING ∧ w.tr.ict.timer_a_start.sec = -1 ∧
    (sends w.trace).map (·.m.transport) = [some "TCP".toList] ∧ w.queue = []) :=
  Ex.reach_exists Ex.inviteTcp [.outgoing Ex.inviteTcp, Ex.x, .tick ⟨1010, 0⟩, Ex.x]
    (by decide +kernel)

end Osip
