import Verif.Fsm.Safe
import Verif.Fsm.Transport
import Verif.Fsm.Examples
import Verif.TimeProps

/-!
# Properties of the non-INVITE client transaction: C08, C09
-/

namespace Osip

/-! ## C08 -/

/-- Timer E. -/
def TimerE (t : Tr) (tr : List Eff) : Prop :=
  (t.state = .NICT_PRE_TRYING → t.nict.timer_e_length = 500 ∧ sends tr = []) ∧
  (t.state = .NICT_TRYING → ∀ r, t.orig_request = some r → Unreliable r.m →
    t.nict.timer_e_length = backoff ((sends tr).length - 1) ∧ sends tr ≠ []) ∧
  (t.state = .NICT_PROCEEDING → ∀ r, t.orig_request = some r → Unreliable r.m →
    t.nict.timer_e_length = 4000)

theorem timerE_exec {env t ev t' e r} (tr : List Eff) (hp : TimerE t tr) (hk : t.ctx_type = .NICT)
    (he : osip_transaction_execute env t ev = some (t', e, r)) : TimerE t' (tr ++ e) := by
  have hd1 : DEFAULT_T1 = 500 := rfl
  have hd2 : DEFAULT_T2 = 4000 := rfl
  have hd3 : DEFAULT_T1_TCP_PROGRESS = 50 := rfl
  fsm_exec he hk hs ht
  all_goals try (simpa [TimerE] using hp; done)
  all_goals unfold TimerE at hp ⊢
  all_goals try (simp [hs]; done)
  -- the request is sent
  · rename_i p hpr
    refine ⟨by simp, fun _ r0 hr0 hu => ?_, by simp⟩
    dsimp only at hr0
    rw [hr0] at hpr
    simp only [unreliable_proto hu hpr, hp.1 hs, Bool.false_eq_true, if_false]
    simp [backoff, hp.1 hs]
    omega
  -- timer E in TRYING
  · rename_i p hpr
    refine ⟨by simp [hs], fun _ r0 hr0 hu => ?_, by simp [hs]⟩
    dsimp only at hr0
    rw [hr0] at hpr
    obtain ⟨h1, h2⟩ := hp.2.1 hs r0 hr0 hu
    have h3 := backoff_succ (n := (sends tr).length) (by simpa using h2)
    have h4 := backoff_pos ((sends tr).length - 1)
    simp only [unreliable_proto hu hpr, Bool.false_eq_true, if_false, sends_append, sends_cons_send,
      sends_cons_cb, sends_nil, List.length_append, List.length_singleton, Nat.add_sub_cancel, hs,
      if_true, h1, hd1, hd2]
    have h6 : ¬ backoff ((sends tr).length - 1) < 500 := by omega
    simp only [h6, if_false, h3]
    simp
  · refine ⟨by simp [hs], fun _ r0 hr0 hu => ?_, by simp [hs]⟩
    obtain ⟨h1, h2⟩ := hp.2.1 hs r0 hr0 hu
    have h3 := backoff_succ (n := (sends tr).length) (by simpa using h2)
    have h4 := backoff_pos ((sends tr).length - 1)
    simp only [Bool.false_eq_true, if_false, sends_append, sends_cons_send,
      sends_cons_cb, sends_nil, List.length_append, List.length_singleton, Nat.add_sub_cancel, hs,
      if_true, h1, hd1, hd2]
    have h6 : ¬ backoff ((sends tr).length - 1) < 500 := by omega
    simp only [h6, if_false, h3]
    simp
  -- 1xx in TRYING
  · refine ⟨by simp, by simp, fun _ r0 hr0 hu => ?_⟩
    obtain ⟨h1, h2⟩ := hp.2.1 hs r0 hr0 hu
    have h4 := backoff_pos ((sends tr).length - 1)
    dsimp only
    rw [if_pos (by omega)]
    exact hd2
  -- timer E in PROCEEDING
  · rename_i p hpr
    refine ⟨by simp [hs], by simp [hs], fun _ r0 hr0 hu => ?_⟩
    dsimp only at hr0
    rw [hr0] at hpr
    simp [unreliable_proto hu hpr, hs, hd2]
  · refine ⟨by simp [hs], by simp [hs], fun _ r0 hr0 hu => ?_⟩
    simp [hs, hd2]
  -- 1xx in PROCEEDING
  · refine ⟨by simp, by simp, fun _ r0 hr0 hu => ?_⟩
    have h1 := hp.2.2 hs r0 hr0 hu
    dsimp only
    rw [if_pos (by omega)]
    exact hd2

theorem reach_timerE {O : Op → Prop} {w : World} (h : ReachO O .NICT w) : TimerE w.tr w.trace := by
  refine reach_inv (k := .NICT) (P := TimerE) ?_ ?_ ?_ h
  · intro n1 n2 req t h
    obtain ⟨p, ho, po, -, -, rfl⟩ := init_NICT h
    exact ⟨fun _ => ⟨rfl, rfl⟩, by simp, by simp⟩
  · intro t tr id hp
    simpa [TimerE] using hp
  · intro env t tr ev t' e r hp hk _ he
    exact timerE_exec tr hp hk he

/-- **C08** (TRYING, unreliable transport, every history). When timer E fires for the `n`-th time,
i.e. after the request was sent `n` times, the request is sent again and timer E is set to exactly
now + min(2^n * T1, T2). -/
theorem c08_trying {env : Env} {w : World} (h : Reach .NICT w) (hs : w.tr.state = .NICT_TRYING)
    {orig : Ref} (ho : w.tr.orig_request = some orig) (hu : Unreliable orig.m) {ev : Ev}
    (hev : EvOk ev) (ht : ev.type = .TIMEOUT_E) (hsend : 0 ≤ env.send) (hn : env.now1.Normal) :
    ∃ t' e r, osip_transaction_execute env w.tr ev = some (t', e, r) ∧
      t'.state = .NICT_TRYING ∧ sends e = [orig] ∧
      t'.nict.timer_e_start.micros =
        env.now1.micros + min (2 ^ (sends w.trace).length * 500) 4000 * 1000 := by
  obtain ⟨t', e, r, he⟩ := exec_safe h env hev
  obtain ⟨h1, h2⟩ := (reach_timerE h).2.1 hs orig ho hu
  have h3 := backoff_succ (n := (sends w.trace).length) (by simpa using h2)
  have h4 := backoff_pos ((sends w.trace).length - 1)
  have h5 := backoff_pos (sends w.trace).length
  have hk := (reach_queue h).1
  have hd1 : DEFAULT_T1 = 500 := rfl
  have hd2 : DEFAULT_T2 = 4000 := rfl
  have key : t'.state = .NICT_TRYING ∧ sends e = [orig] ∧
      t'.nict.timer_e_start = add_gettimeofday env.now1 (backoff (sends w.trace).length) := by
    have hs0 := hs
    have ht0 := ht
    fsm_exec he hk hs ht
    all_goals try (rw [ht] at ht0; simp at ht0; done)
    all_goals try (rw [hs] at hs0; simp at hs0; done)
    all_goals try (omega)
    all_goals try (rw [hs0, ht0, hk] at hs; exact absurd hs (by decide))
    all_goals try (rename_i hpr; rw [ho] at hpr; simp [topViaProto, Unreliable, Msg.transport] at hpr hu
                   split at hpr <;> simp_all; done)
    · rename_i o ho' _ _ _ p hpr
      rw [ho] at ho' hpr
      simp only [Option.some.injEq] at ho'
      subst ho'
      simp only [unreliable_proto hu hpr, hs, h1, if_true, hd1, hd2, Bool.false_eq_true, if_false]
      have h6 : ¬ backoff ((sends w.trace).length - 1) < 500 := by omega
      simp only [h6, if_false, h3]
      simp
    · rename_i o ho' _ _
      rw [ho] at ho'
      simp only [Option.some.injEq] at ho'
      subst ho'
      simp only [hs, h1, if_true, hd1, hd2, Bool.false_eq_true, if_false]
      have h6 : ¬ backoff ((sends w.trace).length - 1) < 500 := by omega
      simp only [h6, if_false, h3]
      simp
  refine ⟨t', e, r, he, key.1, key.2.1, ?_⟩
  rw [key.2.2]
  exact (c27_add_exact_partial hn (by omega) (by omega)).1

example : ∃ w, Reach .NICT w ∧ (w.tr.state = .NICT_TRYING ∧ (sends w.trace).length = 5 ∧
    w.queue = [⟨.TIMEOUT_E, none⟩] ∧ w.tr.orig_request = some ⟨0, Ex.options⟩) :=
  Ex.reach_exists Ex.options ([.outgoing Ex.options, Ex.x] ++
    (List.replicate 4 [.tick ⟨1010, 0⟩, Ex.x]).flatten ++ [.tick ⟨1010, 0⟩]) (by decide +kernel)

/-- **C08** (PROCEEDING, unreliable transport, every history). A provisional response sets timer E
to exactly now + T2, and so does every timer E retransmission after it. -/
theorem c08_proceeding {env : Env} {w : World} (h : Reach .NICT w) {orig : Ref}
    (ho : w.tr.orig_request = some orig) (hu : Unreliable orig.m) {ev : Ev}
    (hev : EvOk ev) (hsend : 0 ≤ env.send) (hn : env.now1.Normal)
    (hcase : ((w.tr.state = .NICT_TRYING ∨ w.tr.state = .NICT_PROCEEDING) ∧
        ev.type = .RCV_STATUS_1XX) ∨
      (w.tr.state = .NICT_PROCEEDING ∧ ev.type = .TIMEOUT_E)) :
    ∃ t' e r, osip_transaction_execute env w.tr ev = some (t', e, r) ∧
      t'.state = .NICT_PROCEEDING ∧
      sends e = (if ev.type = .TIMEOUT_E then [orig] else []) ∧
      t'.nict.timer_e_start.micros = env.now1.micros + 4000 * 1000 := by
  obtain ⟨t', e, r, he⟩ := exec_safe h env hev
  have h1 := (reach_timerE h).2
  have hk := (reach_queue h).1
  have hd1 : DEFAULT_T1 = 500 := rfl
  have hd2 : DEFAULT_T2 = 4000 := rfl
  have hlen : (w.tr.state = .NICT_TRYING ∨ w.tr.state = .NICT_PROCEEDING) →
      w.tr.nict.timer_e_length > 0 := by
    rintro (hs | hs)
    · have := (h1.1 hs orig ho hu).1
      have h4 := backoff_pos ((sends w.trace).length - 1)
      omega
    · have := h1.2 hs orig ho hu
      omega
  have key : t'.state = .NICT_PROCEEDING ∧
      sends e = (if ev.type = .TIMEOUT_E then [orig] else []) ∧
      t'.nict.timer_e_start = add_gettimeofday env.now1 4000 := by
    have hc := hcase
    fsm_exec he hk hs ht
    all_goals try (rw [hs, ht] at hc; simp at hc; done)
    all_goals try (rw [ht] at hc; simp at hc; done)
    all_goals try (omega)
    all_goals try (rename_i hpr; rw [ho] at hpr; simp [topViaProto, Unreliable, Msg.transport] at hpr hu
                   split at hpr <;> simp_all; done)
    · have := hlen (.inl hs)
      simp [this, ht, hd2]
    · rename_i o ho' _ _ _ p hpr
      rw [ho] at ho' hpr
      simp only [Option.some.injEq] at ho'
      subst ho'
      simp [unreliable_proto hu hpr, hs, ht, hd2]
    · rename_i o ho' _ _
      rw [ho] at ho'
      simp only [Option.some.injEq] at ho'
      subst ho'
      simp [hs, ht, hd2]
    · have := hlen (.inr hs)
      simp [this, ht, hd2]
    · rcases hc with ⟨h2 | h2, h3⟩ | ⟨h2, h3⟩ <;> rw [h2, h3, hk] at hs <;>
        exact absurd hs (by decide)
  refine ⟨t', e, r, he, key.1, key.2.1, ?_⟩
  rw [key.2.2]
  exact (c27_add_exact_partial hn (by omega) (by omega)).1

example : ∃ w, Reach .NICT w ∧ (w.tr.state = .NICT_PROCEEDING ∧
    w.queue = [⟨.TIMEOUT_E, none⟩] ∧ w.tr.orig_request = some ⟨0, Ex.options⟩) :=
  Ex.reach_exists Ex.options [.outgoing Ex.options, Ex.x,
    .incoming (Ex.response 100 "UDP" "OPTIONS"), Ex.x, .tick ⟨1020, 0⟩] (by decide +kernel)

/-- A final response was processed: it was executed after the request was sent. -/
def FinalProcessed (w : World) : Prop :=
  ∃ d ∈ w.log, d.state ≠ .NICT_PRE_TRYING ∧
    (d.ev.type = .RCV_STATUS_2XX ∨ d.ev.type = .RCV_STATUS_3456XX)

theorem nict_final_exec {env t ev t' e r} (hi : NictInv t) (hk : t.ctx_type = .NICT)
    (he : osip_transaction_execute env t ev = some (t', e, r)) :
    (t.state ≠ .NICT_PRE_TRYING → (ev.type = .RCV_STATUS_2XX ∨ ev.type = .RCV_STATUS_3456XX) →
      t'.state = .NICT_COMPLETED ∨ t'.state = .NICT_TERMINATED) ∧
    (t.state = .NICT_COMPLETED ∨ t.state = .NICT_TERMINATED →
      (t'.state = .NICT_COMPLETED ∨ t'.state = .NICT_TERMINATED) ∧ sends e = []) := by
  have hst := hi.states
  fsm_exec he hk hs ht
  all_goals try (simp [hs, ht]; done)
  · simp [ht]
  · refine ⟨fun h1 h2 => ?_, fun h => ⟨h, by simp⟩⟩
    rcases hst with h | h | h | h | h
    · exact absurd h h1
    · rcases h2 with h2 | h2 <;> rw [h, h2, hk] at hs <;> exact absurd hs (by decide)
    · rcases h2 with h2 | h2 <;> rw [h, h2, hk] at hs <;> exact absurd hs (by decide)
    · exact .inl h
    · exact .inr h

/-- **C08** (after a final response). Once a final response was processed the transaction sends
nothing more, in any later history. -/
theorem c08_no_send_after_final {w w' : World} (h : Reach .NICT w) (hp : FinalProcessed w)
    {ops : List Op} (hr : w.run ops = some w') :
    ∃ more, w'.trace = w.trace ++ more ∧ sends more = [] := by
  have hst : w.tr.state = .NICT_COMPLETED ∨ w.tr.state = .NICT_TERMINATED := by
    have := reach_inv_log (k := .NICT) (P := fun t _ l => NictInv t ∧
      ((∃ d ∈ l, d.state ≠ .NICT_PRE_TRYING ∧
        (d.ev.type = .RCV_STATUS_2XX ∨ d.ev.type = .RCV_STATUS_3456XX)) →
        (t.state = .NICT_COMPLETED ∨ t.state = .NICT_TERMINATED))) ?_ ?_ ?_ h
    · exact this.2 hp
    · intro n1 n2 req t hi
      exact ⟨nictInv_init hi, by simp⟩
    · intro t tr l id h
      exact h
    · rintro env t tr l ev t' e r ⟨h1, h2⟩ hk hev he
      refine ⟨nictInv_exec h1 hk hev he, ?_⟩
      obtain ⟨h3, h4⟩ := nict_final_exec h1 hk he
      rintro ⟨d, hd, hd1, hd2⟩
      rcases List.mem_append.1 hd with hd | hd
      · exact (h4 (h2 ⟨d, hd, hd1, hd2⟩)).1
      · simp at hd; subst hd
        exact h3 hd1 hd2
  have := run_more_exec (k := .NICT)
    (I := fun t => NictInv t ∧ (t.state = .NICT_COMPLETED ∨ t.state = .NICT_TERMINATED))
    (R := fun x => ∀ s ∈ sends [x], False) (by simp) ?_ h
    ⟨reach_nictInv h, hst⟩ hr
  · obtain ⟨-, e, he, hR⟩ := this
    refine ⟨e, he, ?_⟩
    rw [List.eq_nil_iff_forall_not_mem]
    exact forall_sends.2 hR
  · rintro env t ev t' e r ⟨h1, h2⟩ hk hev he
    obtain ⟨h3, h4⟩ := nict_final_exec h1 hk he
    refine ⟨⟨nictInv_exec h1 hk hev he, (h4 h2).1⟩, forall_sends.1 ?_⟩
    simp [(h4 h2).2]

example : ∃ w, Reach .NICT w ∧ (w.tr.state = .NICT_COMPLETED ∧ w.queue = [⟨.TIMEOUT_E, none⟩] ∧
    w.log.any (fun d => d.state == .NICT_TRYING && d.ev.type == .RCV_STATUS_2XX)) :=
  Ex.reach_exists Ex.options [.outgoing Ex.options, Ex.x,
    .incoming (Ex.response 200 "UDP" "OPTIONS"), .timer .TIMEOUT_E, Ex.x] (by decide +kernel)

end Osip
