import Verif.Fsm.PropsLate

/-!
# C125: a transaction is not kept alive by its peer

Every state in which RFC 3261 limits the time a transaction may wait is left in time, whatever the
peer sends - except CONFIRMED, where every further copy of the ACK starts timer I again.
-/

set_option autoImplicit false

namespace Osip

/-! ## The timer that ends a state -/

/-- The timer that ends a transaction in the given state. -/
def endTimer : State → Option EvType
  | .ICT_CALLING => some .TIMEOUT_B
  | .ICT_COMPLETED => some .TIMEOUT_D
  | .NICT_TRYING | .NICT_PROCEEDING => some .TIMEOUT_F
  | .NICT_COMPLETED => some .TIMEOUT_K
  | .IST_COMPLETED => some .TIMEOUT_H
  | .IST_CONFIRMED => some .TIMEOUT_I
  | .NIST_COMPLETED => some .TIMEOUT_J
  | _ => none

theorem endTimer_of_waitOf {b : Bool} {st : State} {x : EvType} {ms : Int}
    (h : waitOf b st = some (x, ms)) : endTimer st = some x := by
  cases st <;> simp only [waitOf, reduceCtorEq, Option.some.injEq, Prod.mk.injEq] at h <;>
    rw [← h.1] <;> rfl

/-- Once the timer of the state has passed, the timer loop ends a transaction with an empty queue. -/
theorem ends_of_passed {k : Kind} {w : World} (h : Reach k w) {x : EvType}
    (hx : endTimer w.tr.state = some x) (hq : w.queue = []) {now : TimeVal}
    (hsec : (w.tr.deadline x).sec ≠ -1) (hpassed : timerGt now (w.tr.deadline x) = true)
    (send : Int) (n1 n2 : TimeVal) :
    ∃ w', w.run [.tick now, .exec send n1 n2] = some w' ∧ w'.tr.state.isTerminated = true := by
  have hk := (reach_queue h).1
  have key : timersExecute w.tr [] now = [⟨x, none⟩] →
      (∃ t' e r, osip_transaction_execute ⟨send, n1, n2, w.next⟩ w.tr ⟨x, none⟩ = some (t', e, r) ∧
        t'.state.isTerminated = true) →
      ∃ w', w.run [.tick now, .exec send n1 n2] = some w' ∧ w'.tr.state.isTerminated = true := by
    rintro h1 ⟨t', e, r, h2, h3⟩
    exact ⟨_, by simp [World.run, World.step, hq, h1, h2]; rfl, h3⟩
  have hsec' : ((w.tr.deadline x).sec == -1) = false := by simpa using hsec
  cases k
  · rcases (reach_ictInv h).states with hst | hst | hst | hst | hst <;>
      simp only [hst, endTimer, reduceCtorEq, Option.some.injEq] at hx
    all_goals
      subst hx
      refine key ?_ ?_
      · simp only [Tr.deadline] at hsec' hpassed
        simp [timersExecute, hk, timerOrder, needTimer, hst, hsec', hpassed]
      · simp [osip_transaction_execute, hk, hst, tableOf, fsm_findmethod, ict_transition, H.run,
          osip_ict_timeout_b_event, osip_ict_timeout_d_event]
        rfl
  · rcases (reach_istInv h).states with hst | hst | hst | hst | hst <;>
      simp only [hst, endTimer, reduceCtorEq, Option.some.injEq] at hx
    all_goals
      subst hx
      refine key ?_ ?_
      · simp only [Tr.deadline] at hsec' hpassed
        simp [timersExecute, hk, timerOrder, needTimer, hst, hsec', hpassed]
      · simp [osip_transaction_execute, hk, hst, tableOf, fsm_findmethod, ist_transition, H.run,
          osip_ist_timeout_h_event, osip_ist_timeout_i_event]
        rfl
  · rcases (reach_nictInv h).states with hst | hst | hst | hst | hst <;>
      simp only [hst, endTimer, reduceCtorEq, Option.some.injEq] at hx
    all_goals
      subst hx
      refine key ?_ ?_
      · simp only [Tr.deadline] at hsec' hpassed
        simp [timersExecute, hk, timerOrder, needTimer, hst, hsec', hpassed]
      · simp [osip_transaction_execute, hk, hst, tableOf, fsm_findmethod, nict_transition, H.run,
          osip_nict_timeout_f_event, osip_nict_timeout_k_event]
        rfl
  · rcases (reach_nistInv h).states with hst | hst | hst | hst | hst <;>
      simp only [hst, endTimer, reduceCtorEq, Option.some.injEq] at hx
    all_goals
      subst hx
      refine key ?_ ?_
      · simp only [Tr.deadline] at hsec' hpassed
        simp [timersExecute, hk, timerOrder, needTimer, hst, hsec', hpassed]
      · simp [osip_transaction_execute, hk, hst, tableOf, fsm_findmethod, nist_transition, H.run,
          osip_nist_timeout_j_event]
        rfl

/-! ## The deadline does not move -/

/-- The transaction has gone on for good from the waiting state `st`. -/
def NextOf (st : State) (t : Tr) : Prop :=
  t.state.isTerminated = true ∨ st = .IST_COMPLETED ∧ t.state = .IST_CONFIRMED

theorem terminated_exec {env t ev t' e r} (h : t.state.isTerminated = true)
    (he : osip_transaction_execute env t ev = some (t', e, r)) : t'.state.isTerminated = true := by
  cases hk : t.ctx_type
  all_goals
    fsm_exec he hk hs ht
    all_goals first
      | exact h
      | (simp only [hs, State.isTerminated] at h; cases h)

/-- Executing an event other than another ACK in CONFIRMED leaves the deadline of the state alone, or
leaves the state for good. -/
theorem fixed_exec {b : Bool} {st : State} {x : EvType} {ms : Int} {env t ev t' e r}
    (hw : waitOf b st = some (x, ms)) (h : t.state = st)
    (hack : st = .IST_CONFIRMED → ev.type ≠ .RCV_REQACK)
    (he : osip_transaction_execute env t ev = some (t', e, r)) :
    (t'.state = st ∧ t'.deadline x = t.deadline x) ∨ NextOf st t' := by
  subst h
  cases hk : t.ctx_type
  all_goals
    fsm_exec he hk hs ht
    all_goals first
      | exact .inl ⟨rfl, rfl⟩
      | (simp only [hs, waitOf, reduceCtorEq] at hw; done)
      | exact .inr (.inl rfl)
      | exact .inr (.inr ⟨hs, rfl⟩)
      | exact absurd ht (hack hs)
      | skip
  all_goals
    simp only [hs, waitOf, Option.some.injEq, Prod.mk.injEq] at hw
    obtain ⟨rfl, rfl⟩ := hw
    first
      | exact .inl ⟨hs.symm, rfl⟩
      | exact .inl ⟨rfl, rfl⟩
      | (exfalso; simp only [hs, reduceCtorEq] at *; done)

theorem next_exec {st : State} {env t ev t' e r} (h : NextOf st t)
    (he : osip_transaction_execute env t ev = some (t', e, r)) : NextOf st t' := by
  rcases h with h | ⟨h1, h2⟩
  · exact .inl (terminated_exec h he)
  · cases hk : t.ctx_type
    all_goals
      fsm_exec he hk hs ht
      all_goals first
        | exact .inr ⟨h1, h2⟩
        | exact .inr ⟨h1, rfl⟩
        | exact .inl rfl
        | (simp only [hs, reduceCtorEq] at h2; done)

theorem next_run {st : State} : ∀ {ops : List Op} {w w' : World}, NextOf st w.tr →
    w.run ops = some w' → NextOf st w'.tr := by
  intro ops
  induction ops with
  | nil =>
    intro w w' h hr
    simp only [World.run, Option.some.injEq] at hr
    exact hr ▸ h
  | cons o os ih =>
    intro w w' h hr
    simp only [World.run, Option.bind_eq_bind, Option.bind_eq_some_iff] at hr
    obtain ⟨w1, h1, h2⟩ := hr
    refine ih ?_ h2
    rcases step_cases h1 with ⟨q, rfl, _⟩ | ⟨_, _, _, _, _, rfl⟩ |
      ⟨s, n1, n2, ev, q, t, e, r, rfl, hqq, he, rfl⟩
    · exact h
    · exact h
    · exact next_exec h he

/-- No ACK was executed between the two moments. -/
def NoAckSince (w w' : World) : Prop :=
  ∀ l, w'.log = w.log ++ l → ∀ d ∈ l, d.ev.type ≠ .RCV_REQACK

theorem fixed_run {b : Bool} {st : State} {x : EvType} {ms : Int} (hw : waitOf b st = some (x, ms)) :
    ∀ {ops : List Op} {w w' : World}, w.tr.state = st → w.run ops = some w' →
    (st = .IST_CONFIRMED → NoAckSince w w') →
    (w'.tr.state = st ∧ w'.tr.deadline x = w.tr.deadline x) ∨ NextOf st w'.tr := by
  intro ops
  induction ops with
  | nil =>
    intro w w' h hr _
    simp only [World.run, Option.some.injEq] at hr
    subst hr
    exact .inl ⟨h, rfl⟩
  | cons o os ih =>
    intro w w' h hr hack
    simp only [World.run, Option.bind_eq_bind, Option.bind_eq_some_iff] at hr
    obtain ⟨w1, h1, h2⟩ := hr
    rcases step_cases h1 with ⟨q, rfl, _⟩ | ⟨_, _, _, _, _, rfl⟩ |
      ⟨s, n1, n2, ev, q, t, e, r, rfl, hqq, he, rfl⟩
    · have := ih (by exact h) h2 hack
      exact this
    · have := ih (by exact h) h2 hack
      exact this
    · obtain ⟨l, hl⟩ := run_log_prefix h2
      have hack' : st = .IST_CONFIRMED → ev.type ≠ .RCV_REQACK := by
        intro hc
        refine hack hc (⟨w.tr.state, ev, s⟩ :: l) ?_ ⟨w.tr.state, ev, s⟩ (by simp)
        rw [hl]
        simp
      have hack2 : st = .IST_CONFIRMED → ∀ l', w'.log = (w.log ++ [⟨w.tr.state, ev, s⟩]) ++ l' →
          ∀ d ∈ l', d.ev.type ≠ .RCV_REQACK := by
        intro hc l' hl' d hd
        refine hack hc (⟨w.tr.state, ev, s⟩ :: l') ?_ d (by simp [hd])
        rw [hl']
        simp
      rcases fixed_exec hw h hack' he with ⟨h3, h4⟩ | h3
      · rcases ih (by exact h3) h2 hack2 with ⟨h5, h6⟩ | h5
        · exact .inl ⟨h5, h6.trans h4⟩
        · exact .inr h5
      · exact .inr (next_run (by exact h3) h2)

/-! ## The deadline on entering a state -/

theorem enter_upper {b : Bool} {env t ev t' e r} (hp : Lengths b t.ctx_type t)
    (hn1 : env.now1.Normal) (hn2 : env.now2.Normal) (hle : env.now1.micros ≤ env.now2.micros)
    (he : osip_transaction_execute env t ev = some (t', e, r)) (hne : t'.state ≠ t.state)
    {x : EvType} {ms : Int} (hw : waitOf b t'.state = some (x, ms)) :
    (t'.deadline x).micros ≤ env.now2.micros + ms * 1000 := by
  have add := fun (n : Int) (h0 : 0 ≤ n) (h1 : n < 1000000) => c27_add_exact_partial hn1 h0 h1
  have add2 := fun (n : Int) (h0 : 0 ≤ n) (h1 : n < 1000000) => c27_add_exact_partial hn2 h0 h1
  unfold Lengths at hp
  cases hk : t.ctx_type
  all_goals
    simp only [hk, terminatedOf] at hp
    fsm_exec he hk hs ht
    all_goals first
      | (exact absurd rfl hne)
      | (exact absurd hs.symm hne)
      | (simp [waitOf, hs] at hw; done)
      | skip
  all_goals
    simp only [waitOf, hs, Option.some.injEq, Prod.mk.injEq, reduceCtorEq] at hw
    obtain ⟨rfl, rfl⟩ := hw
    have hp := hp (by rw [hs]; decide)
  all_goals
    simp only [Tr.deadline]
    cases b <;> simp only [hp, hs, if_true, if_false, Bool.false_eq_true, reduceCtorEq, ne_eq,
        not_false_eq_true] <;> first
      | (have := (add 0 (by decide) (by decide)).1; omega)
      | (have := (add 5000 (by decide) (by decide)).1; omega)
      | (have := (add 32000 (by decide) (by decide)).1; omega)
      | (have := (add2 32000 (by decide) (by decide)).1; omega)

theorem waitOf_nonneg {b : Bool} {st : State} {x : EvType} {ms : Int}
    (h : waitOf b st = some (x, ms)) : 0 ≤ ms := by
  cases st <;> simp only [waitOf, reduceCtorEq, Option.some.injEq, Prod.mk.injEq] at h <;>
    rw [← h.2] <;> cases b <;> decide

/-- A normal time not before the epoch has seconds not before the epoch. -/
theorem sec_nonneg {t : TimeVal} (hn : t.Normal) (h : 0 ≤ t.micros) : 0 ≤ t.sec := by
  unfold TimeVal.Normal at hn
  unfold TimeVal.micros at h
  omega

theorem micros_nonneg {t : TimeVal} (hn : t.Normal) (h : 0 ≤ t.sec) : 0 ≤ t.micros := by
  unfold TimeVal.Normal at hn
  unfold TimeVal.micros
  omega

/-- **C125 (waiting states).** A transaction enters a waiting state by an event executed while the
clock shows `n1` to `n2`. Whatever the peer and the application do then, when the timer loop is run
later than the RFC 3261 waiting period after `n2`, with all events executed, the transaction has
ended or the event queued by the loop ends it; only an INVITE server transaction may have gone on
from COMPLETED to CONFIRMED. Partial: in CONFIRMED this needs that no further ACK was executed. -/
theorem c125_ends_partial {reliable : Bool} {k : Kind} {w w1 w2 : World}
    (h : ReachFrom (Over reliable) (fun _ => True) k w) {send : Int} {n1 n2 : TimeVal}
    (hn1 : n1.Normal) (hn2 : n2.Normal) (hle : n1.micros ≤ n2.micros) (h0 : 0 ≤ n1.sec)
    (hx : w.step (.exec send n1 n2) = some w1) (hne : w1.tr.state ≠ w.tr.state)
    {x : EvType} {ms : Int} (hw : waitOf reliable w1.tr.state = some (x, ms)) {ops : List Op}
    (hr : w1.run ops = some w2) (hack : w1.tr.state = .IST_CONFIRMED → NoAckSince w1 w2)
    (hq : w2.queue = []) {now : TimeVal} (hnow : now.Normal)
    (hlate : n2.micros + ms * 1000 < now.micros) (send' : Int) (m1 m2 : TimeVal) :
    w2.tr.state.isTerminated = true ∨
    (w1.tr.state = .IST_COMPLETED ∧ w2.tr.state = .IST_CONFIRMED) ∨
    ∃ w3, w2.run [.tick now, .exec send' m1 m2] = some w3 ∧ w3.tr.state.isTerminated = true := by
  obtain ⟨rfl, hl⟩ := reach_lengths h
  rcases step_cases hx with ⟨q, rfl, _⟩ | ⟨_, _, _, _, h3, _⟩ |
    ⟨s, m1', m2', ev, q, t, e, r, hs, hqq, he, hww⟩
  · exact absurd rfl hne
  · rcases h3 with h3 | h3 <;> cases h3
  cases hs
  have htr : w1.tr = t := by rw [hww]
  obtain ⟨q1, _⟩ := enter_exec (env := ⟨send, n1, n2, w.next⟩) hl hn1 hn2 hle he (htr ▸ hne)
    (htr ▸ hw)
  have q2 := enter_upper (env := ⟨send, n1, n2, w.next⟩) hl hn1 hn2 hle he (htr ▸ hne) (htr ▸ hw)
  rw [← htr] at q1 q2
  rcases fixed_run hw rfl hr hack with ⟨h5, h6⟩ | h5 | h5
  · right; right
    refine ends_of_passed (k := w.tr.ctx_type) ?_ (x := x) (h5 ▸ endTimer_of_waitOf hw) hq ?_ ?_
      send' m1 m2
    · obtain ⟨a, b, c, d, os, _, f2, f3, _⟩ := h
      refine ⟨a, b, c, d, os ++ .exec send n1 n2 :: ops, f2, ?_, fun _ _ => trivial⟩
      rw [World.run_append, f3]
      simp only [Option.bind_some, World.run, Option.bind_eq_bind, hx, hr]
    · rw [h6]
      have := waitOf_nonneg hw
      have := micros_nonneg hn1 h0
      have hlow := q1.late
      have := sec_nonneg q1.normal (by simp only at hlow; omega)
      omega
    · rw [h6]
      exact (timerGt_iff hnow q1.normal).2 (by simp only at q2; omega)
  · exact .inl h5
  · exact .inr (.inl h5)

/-! ## Requests that are never answered -/

/-- The states of a client transaction in which the peer has not answered finally, as far as RFC
3261 limits the time spent in them, with the timer that limits it. -/
def limited : Kind → List State
  | .ICT => [.ICT_PRE_CALLING, .ICT_CALLING]
  | .NICT => [.NICT_PRE_TRYING, .NICT_TRYING, .NICT_PROCEEDING]
  | _ => []

def limitTimer : Kind → EvType
  | .ICT => .TIMEOUT_B
  | _ => .TIMEOUT_F

theorem limited_exec {k : Kind} {env t ev t' e r} (hk : t.ctx_type = k)
    (he : osip_transaction_execute env t ev = some (t', e, r)) :
    t'.state ∉ limited k ∨ (t.state ∈ limited k ∧
      t'.deadline (limitTimer k) = t.deadline (limitTimer k)) := by
  cases k
  all_goals
    fsm_exec he hk hs ht
    all_goals first
      | (left; simp [limited, hs]; done)
      | (right; exact ⟨by rw [hs]; decide, rfl⟩)
      | exact (Classical.em _).elim (fun h => .inr ⟨h, rfl⟩) .inl
      | (exfalso; simp only [hs, reduceCtorEq] at *; done)
      | (right; refine ⟨by rw [hs]; decide, ?_⟩; simp only [limitTimer, Tr.deadline]; split <;> rfl)
      | (right; refine ⟨by rw [hs]; decide, ?_⟩; simp only [limitTimer, Tr.deadline]
         repeat' split
         all_goals rfl)
      | skip

theorem limited_run {k : Kind} : ∀ {ops : List Op} {w w' : World}, w.tr.ctx_type = k →
    w.run ops = some w' → w'.tr.state ∉ limited k ∨ (w.tr.state ∈ limited k ∧
      w'.tr.deadline (limitTimer k) = w.tr.deadline (limitTimer k)) := by
  intro ops
  induction ops with
  | nil =>
    intro w w' _ hr
    simp only [World.run, Option.some.injEq] at hr
    subst hr
    exact (Classical.em (w.tr.state ∈ limited k)).elim (fun h => .inr ⟨h, rfl⟩) .inl
  | cons o os ih =>
    intro w w' hk hr
    simp only [World.run, Option.bind_eq_bind, Option.bind_eq_some_iff] at hr
    obtain ⟨w1, h1, h2⟩ := hr
    rcases step_cases h1 with ⟨q, rfl, _⟩ | ⟨_, _, _, _, _, rfl⟩ |
      ⟨s, n1, n2, ev, q, t, e, r, rfl, hqq, he, rfl⟩
    · have := ih (by exact hk) h2
      exact this
    · have := ih (by exact hk) h2
      exact this
    · rcases ih (by exact (exec_ctx_type he).trans hk) h2 with h3 | ⟨h3, h4⟩
      · exact .inl h3
      · rcases limited_exec hk he with h5 | ⟨h5, h6⟩
        · exact absurd h3 h5
        · exact .inr ⟨h5, h4.trans h6⟩

/-- **C125 (unanswered requests).** A client transaction created while the clock shows `c1` to `c2`
whose request was sent: whatever provisional responses or other messages arrive, when the timer loop
is run later than 32 seconds (64 times T1) after `c2` with all events executed, an INVITE still
without any response and any other request still without a final response has ended after the
event queued by the loop. -/
theorem c125_unanswered {k : Kind} {c1 c2 : TimeVal} {req : Msg} {t : Tr} {ops : List Op} {w : World}
    (hc1 : c1.Normal) (hc2 : c2.Normal) (hle : c1.micros ≤ c2.micros) (h0 : 0 ≤ c1.sec)
    (hi : transactionInit k c1 c2 req = some (.ok t)) (hr : (World.init t).run ops = some w)
    (hst : w.tr.state ∈ [.ICT_CALLING, .NICT_TRYING, .NICT_PROCEEDING]) (hq : w.queue = [])
    {now : TimeVal} (hnow : now.Normal) (hlate : c2.micros + 32000000 < now.micros)
    (send : Int) (m1 m2 : TimeVal) :
    ∃ w', w.run [.tick now, .exec send m1 m2] = some w' ∧ w'.tr.state.isTerminated = true := by
  have hre : Reach k w := ⟨c1, c2, req, t, ops, hi, hr, fun _ _ => trivial⟩
  have add1 := c27_add_exact_partial hc1 (ms := 32000) (by decide) (by decide)
  have add2 := c27_add_exact_partial hc2 (ms := 32000) (by decide) (by decide)
  have hm := micros_nonneg hc1 h0
  have hlim : w.tr.state ∈ limited k := by
    simp only [List.mem_cons, List.not_mem_nil, or_false] at hst
    cases k
    · have := (reach_ictInv hre).states
      rcases hst with h | h | h <;> rw [h] at this ⊢ <;> first | decide | (exfalso; revert this; decide)
    · have := (reach_istInv hre).states
      rcases hst with h | h | h <;> rw [h] at this ⊢ <;> first | decide | (exfalso; revert this; decide)
    · have := (reach_nictInv hre).states
      rcases hst with h | h | h <;> rw [h] at this ⊢ <;> first | decide | (exfalso; revert this; decide)
    · have := (reach_nistInv hre).states
      rcases hst with h | h | h <;> rw [h] at this ⊢ <;> first | decide | (exfalso; revert this; decide)
  have hdl : (t.deadline (limitTimer k)).Normal ∧ 0 ≤ (t.deadline (limitTimer k)).micros ∧
      (t.deadline (limitTimer k)).micros ≤ c2.micros + 32000000 := by
    cases k
    · have : t.deadline .TIMEOUT_B = add_gettimeofday c2 32000 := by
        simp only [transactionInit, Option.bind_eq_bind, Option.bind_eq_some_iff] at hi
        obtain ⟨c, hc, hi⟩ := hi
        unfold ict_init at hc
        split at hc
        · simp only [Option.some.injEq] at hc
          subst hc
          simp at hi
        split at hc
        · simp only [Option.some.injEq] at hc
          subst hc
          simp at hi
        simp only [Option.bind_eq_bind, Option.bind_eq_some_iff, Option.pure_def,
          Option.some.injEq] at hc
        obtain ⟨_, _, rfl⟩ := hc
        simp only [Option.pure_def, Option.some.injEq, Except.ok.injEq] at hi
        subst hi
        rfl
      simp only [limitTimer, this]
      exact ⟨add2.2, by omega, by omega⟩
    · exact absurd hlim (by simp [limited])
    · have : t.deadline .TIMEOUT_F = add_gettimeofday c1 32000 := by
        simp only [transactionInit, Option.bind_eq_bind, Option.bind_eq_some_iff] at hi
        obtain ⟨c, hc, hi⟩ := hi
        unfold nict_init at hc
        split at hc
        · simp only [Option.some.injEq] at hc
          subst hc
          simp at hi
        split at hc
        · simp only [Option.some.injEq] at hc
          subst hc
          simp at hi
        simp only [Option.bind_eq_bind, Option.bind_eq_some_iff, Option.pure_def,
          Option.some.injEq] at hc
        obtain ⟨_, _, rfl⟩ := hc
        simp only [Option.pure_def, Option.some.injEq, Except.ok.injEq] at hi
        subst hi
        rfl
      simp only [limitTimer, this]
      exact ⟨add1.2, by omega, by omega⟩
    · exact absurd hlim (by simp [limited])
  rcases limited_run (init_shape hi).1 hr with h1 | ⟨_, h2⟩
  · exact absurd hlim h1
  have h2' : w.tr.deadline (limitTimer k) = t.deadline (limitTimer k) := h2
  refine ends_of_passed hre (x := limitTimer k) ?_ hq ?_ ?_ send m1 m2
  · cases k <;> simp only [limited, List.not_mem_nil] at hlim <;>
      simp only [List.mem_cons, List.not_mem_nil, or_false] at hst hlim
    · rcases hst with h | h | h <;> rw [h] at hlim ⊢ <;> first | rfl | (simp at hlim; done)
    · rcases hst with h | h | h <;> rw [h] at hlim ⊢ <;> first | rfl | (simp at hlim; done)
  · rw [h2']
    have := sec_nonneg hdl.1 hdl.2.1
    omega
  · rw [h2']
    exact (timerGt_iff hnow hdl.1).2 (by omega)

/-! ## Repeated ACKs -/

/-- What the peer does in one round of four seconds, starting at second `s`: another copy of the ACK
arrives and is executed, and the timer loop is run. -/
def round (ack : Msg) (s : Int) : List Op :=
  [.incoming ack, .exec 0 ⟨s + 4, 0⟩ ⟨s + 4, 0⟩, .tick ⟨s + 4, 0⟩]

def rounds (ack : Msg) : Nat → Int → List Op
  | 0, _ => []
  | n + 1, s => round ack s ++ rounds ack n (s + 4)

/-- Confirmed at second `s`, over an unreliable transport, with nothing to do. -/
structure ConfirmedAt (s : Int) (w : World) : Prop where
  kind : w.tr.ctx_type = .IST
  state : w.tr.state = .IST_CONFIRMED
  length : w.tr.ist.timer_i_length = 5000
  start : w.tr.ist.timer_i_start = ⟨s + 5, 0⟩
  queue : w.queue = []

theorem confirmed_round {ack : Msg} (ha : evtAllowed ack = true)
    (ht : evt_type_incoming ack = .RCV_REQACK) {s : Int} (hs : 0 ≤ s) {w : World}
    (h : ConfirmedAt s w) : ∃ w', w.run (round ack s) = some w' ∧ ConfirmedAt (s + 4) w' := by
  obtain ⟨h1, h2, h3, h4, h5⟩ := h
  have hadd : add_gettimeofday ⟨s + 4, 0⟩ 5000 = ⟨s + 4 + 5, 0⟩ := by
    have : (5000000 : Int).tdiv 1000000 = 5 := by decide
    have h6 : (5000000 : Int).tmod 1000000 = 0 := by decide
    simp [add_gettimeofday, this, h6]
  have hgt : timerGt ⟨s + 4, 0⟩ ⟨s + 4 + 5, 0⟩ = false := by
    unfold timerGt
    rw [if_neg (by simp only; omega)]
    simp
    omega
  refine ⟨_, by
    simp [round, World.run, World.step, ha, ht, h5, osip_transaction_execute, h1, h2, tableOf,
      fsm_findmethod, ist_transition, H.run, ist_rcv_ack, h3, hadd, timersExecute, timerOrder,
      needTimer, hgt]
    rfl, ?_, ?_, ?_, ?_, ?_⟩
  all_goals rfl

theorem confirmed_rounds {ack : Msg} (ha : evtAllowed ack = true)
    (ht : evt_type_incoming ack = .RCV_REQACK) : ∀ {n : Nat} {s : Int} {w : World}, 0 ≤ s →
    ConfirmedAt s w → ∃ w', w.run (rounds ack n s) = some w' ∧ ConfirmedAt (s + 4 * n) w' := by
  intro n
  induction n with
  | zero => intro s w _ h; exact ⟨w, rfl, by simpa using h⟩
  | succ n ih =>
    intro s w hs h
    obtain ⟨w1, h1, h2⟩ := confirmed_round ha ht hs h
    obtain ⟨w2, h3, h4⟩ := ih (by omega) h2
    refine ⟨w2, ?_, ?_⟩
    · rw [rounds, World.run_append, h1]
      exact h3
    · have : s + 4 + 4 * (n : Int) = s + 4 * ((n + 1 : Nat) : Int) := by omega
      rwa [this] at h4

/-- **C125 is violated.** An INVITE server transaction over UDP, with all events executed and its
timers run every four seconds, stays in CONFIRMED for as long as the peer repeats the ACK every four
seconds: RFC 3261 (17.2.1) gives it five seconds. -/
theorem c125_violated : ∃ w, ReachFrom (Over false) TimersInOrder .IST w ∧
    w.tr.state = .IST_CONFIRMED ∧ ∀ n : Nat, ∃ w',
      w.run (rounds (Ex.request "UDP" "ACK") n 1001) = some w' ∧ w'.tr.state = .IST_CONFIRMED ∧
      w'.queue = [] := by
  obtain ⟨w, h1, h2⟩ : ∃ w, ReachFrom (Over false) TimersInOrder .IST w ∧
      (w.tr.ctx_type = .IST ∧ w.tr.state = .IST_CONFIRMED ∧ w.tr.ist.timer_i_length = 5000 ∧
        w.tr.ist.timer_i_start = ⟨1001 + 5, 0⟩ ∧ w.queue = []) :=
    Ex.reachFrom_exists Ex.invite (by exact ⟨_, rfl, by rw [← isReliable_iff]; decide +kernel⟩)
      [.incoming Ex.invite, Ex.x, .outgoing (Ex.response 486 "UDP" "INVITE"), Ex.x,
        .incoming (Ex.request "UDP" "ACK"), Ex.x] (by simp [TimersInOrder, Ex.x])
      (by decide +kernel)
  obtain ⟨a1, a2, a3, a4, a5⟩ := h2
  refine ⟨w, h1, a2, fun n => ?_⟩
  obtain ⟨w', b1, b2⟩ := confirmed_rounds (ack := Ex.request "UDP" "ACK") (by decide +kernel)
    (by decide +kernel) (n := n) (s := 1001) (by decide) ⟨a1, a2, a3, a4, a5⟩
  exact ⟨w', b1, b2.state, b2.queue⟩

/-! ## Examples -/

/-- Without further ACKs it ends after five seconds. -/
example : (Ex.go .IST Ex.invite [.incoming Ex.invite, Ex.x,
      .outgoing (Ex.response 486 "UDP" "INVITE"), Ex.x, .incoming (Ex.request "UDP" "ACK"), Ex.x,
      .tick ⟨1006, 0⟩, Ex.x]).map (·.tr.state) = some .IST_CONFIRMED ∧
    (Ex.go .IST Ex.invite [.incoming Ex.invite, Ex.x,
      .outgoing (Ex.response 486 "UDP" "INVITE"), Ex.x, .incoming (Ex.request "UDP" "ACK"), Ex.x,
      .tick ⟨1006, 1⟩, Ex.x]).map (·.tr.state) = some .IST_TERMINATED := by decide +kernel

/-- An OPTIONS request created at 1000 s and answered only provisionally ends at 1032 s. -/
example : (Ex.go .NICT Ex.options [.outgoing Ex.options, Ex.x,
      .incoming (Ex.response 100 "UDP" "OPTIONS"), .exec 0 ⟨1030, 0⟩ ⟨1030, 0⟩,
      .tick ⟨1032, 1⟩, .exec 0 ⟨1033, 0⟩ ⟨1033, 0⟩]).map (·.tr.state) = some .NICT_TERMINATED := by
  decide +kernel

/-- An INVITE client transaction that got a 486 at 1001 s is polled at 1033 s and a microsecond. -/
example : (Ex.go .ICT Ex.invite [.outgoing Ex.invite, Ex.x,
      .incoming (Ex.response 486 "UDP" "INVITE"), Ex.x, .incoming (Ex.response 486 "UDP" "INVITE"),
      .exec 0 ⟨1030, 0⟩ ⟨1030, 0⟩, .tick ⟨1033, 1⟩, .exec 0 ⟨1033, 1⟩ ⟨1033, 1⟩]).map
      (·.tr.state) = some .ICT_TERMINATED := by decide +kernel

/-- A world that meets the hypotheses of `c125_ends_partial`. -/
example : ∃ w, ReachFrom (Over false) TimersInOrder .NIST w ∧
    (w.tr.state = .NIST_TRYING ∧ (w.step (.exec 0 ⟨1001, 0⟩ ⟨1001, 0⟩)).any (fun w1 =>
      decide (w1.tr.state = .NIST_COMPLETED) && w1.queue.isEmpty) = true) :=
  Ex.reachFrom_exists Ex.options (by exact ⟨_, rfl, by rw [← isReliable_iff]; decide +kernel⟩)
    [.incoming Ex.options, Ex.x, .outgoing (Ex.response 200 "UDP" "OPTIONS")]
    (by simp [TimersInOrder, Ex.x]) (by decide +kernel)

end Osip
