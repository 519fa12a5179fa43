import Verif.Fsm.Safe
import Verif.Fsm.Transport
import Verif.Fsm.Examples
import Verif.TimeProps

/-!
# Timers of all four transaction kinds: C16, C29
-/

namespace Osip

/-- The deadline of a timer. -/
def Tr.deadline (t : Tr) : EvType → TimeVal
  | .TIMEOUT_A => t.ict.timer_a_start | .TIMEOUT_B => t.ict.timer_b_start
  | .TIMEOUT_D => t.ict.timer_d_start
  | .TIMEOUT_E => t.nict.timer_e_start | .TIMEOUT_F => t.nict.timer_f_start
  | .TIMEOUT_K => t.nict.timer_k_start
  | .TIMEOUT_G => t.ist.timer_g_start | .TIMEOUT_H => t.ist.timer_h_start
  | .TIMEOUT_I => t.ist.timer_i_start | .TIMEOUT_J => t.nist.timer_j_start
  | _ => ⟨-1, 0⟩

/-- The states in which RFC 3261 section 17 lets a timer run. -/
def rfcTimerStates : EvType → List State
  | .TIMEOUT_A => [.ICT_CALLING]
  | .TIMEOUT_B => [.ICT_CALLING]
  | .TIMEOUT_D => [.ICT_COMPLETED]
  | .TIMEOUT_E => [.NICT_TRYING, .NICT_PROCEEDING]
  | .TIMEOUT_F => [.NICT_TRYING, .NICT_PROCEEDING]
  | .TIMEOUT_K => [.NICT_COMPLETED]
  | .TIMEOUT_G => [.IST_COMPLETED]
  | .TIMEOUT_H => [.IST_COMPLETED]
  | .TIMEOUT_I => [.IST_CONFIRMED]
  | .TIMEOUT_J => [.NIST_COMPLETED]
  | _ => []

/-! ## C29 -/

/-- A timer is due: its state, started, and strictly after the deadline. -/
def Due (tr : Tr) (t : EvType) (now : TimeVal) : Prop :=
  tr.state ∈ rfcTimerStates t ∧ (tr.deadline t).sec ≠ -1 ∧
    now.micros > (tr.deadline t).micros

theorem needTimer_iff {tr : Tr} {t : EvType} {now : TimeVal} (hn : now.Normal)
    (hd : (tr.deadline t).Normal) : needTimer tr t now = true ↔ Due tr t now := by
  have h := timerGt_iff hn hd
  unfold Due
  cases t <;> simp [needTimer, Tr.deadline, rfcTimerStates] at h ⊢ <;> simp [h, and_assoc]
  all_goals grind

/-- **C29**. The timer test answers yes exactly if the transaction is in a state for which
RFC 3261 defines the timer, the timer was started, and the time is strictly after the deadline. -/
theorem c29_need_timer {tr : Tr} {t : EvType} {now : TimeVal} (hn : now.Normal)
    (hd : (tr.deadline t).Normal) :
    needTimer tr t now = true ↔
      tr.state ∈ rfcTimerStates t ∧ (tr.deadline t).sec ≠ -1 ∧
        now.sec * 1000000 + now.usec > (tr.deadline t).sec * 1000000 + (tr.deadline t).usec :=
  needTimer_iff hn hd

/-- The timers of a transaction kind. -/
def kindTimers : Kind → List EvType
  | .ICT => [.TIMEOUT_A, .TIMEOUT_B, .TIMEOUT_D]
  | .NICT => [.TIMEOUT_E, .TIMEOUT_F, .TIMEOUT_K]
  | .IST => [.TIMEOUT_G, .TIMEOUT_H, .TIMEOUT_I]
  | .NIST => [.TIMEOUT_J]

/-- **C29** (the timer loop). A run of the timer loop queues at most one event; it is a timer of
this kind of transaction that is due. If nothing is queued and some timer of this kind is due, an
event is queued. -/
theorem c29_tick {tr : Tr} {q : List Ev} {now : TimeVal} (hn : now.Normal)
    (hd : ∀ t ∈ kindTimers tr.ctx_type, (tr.deadline t).Normal) :
    (∀ ev ∈ timersExecute tr q now, ev.sip = none ∧ ev.type ∈ kindTimers tr.ctx_type ∧
      Due tr ev.type now) ∧
    (timersExecute tr q now).length ≤ 1 ∧
    (q = [] → (∃ t ∈ kindTimers tr.ctx_type, Due tr t now) → timersExecute tr q now ≠ []) := by
  have hmem : ∀ t, t ∈ timerOrder tr.ctx_type ↔ t ∈ kindTimers tr.ctx_type := by
    intro t
    cases tr.ctx_type <;> simp [timerOrder, kindTimers] <;> grind
  refine ⟨?_, ?_, ?_⟩
  · rcases timersExecute_cases tr q now with h0 | ⟨t, _, _, h3, h4, h5⟩
    · simp [h0]
    · rw [h5]
      have h6 := (hmem t).1 h3
      simp only [List.mem_singleton, forall_eq]
      exact ⟨trivial, h6, (needTimer_iff hn (hd t h6)).1 h4⟩
  · rcases timersExecute_cases tr q now with h0 | ⟨t, _, _, h3, h4, h5⟩
    · simp [h0]
    · simp [h5]
  · rintro rfl ⟨t, ht, hdue⟩
    have h1 := (needTimer_iff hn (hd t ht)).2 hdue
    unfold timersExecute
    rw [if_neg (by simp)]
    split
    · next hf =>
      have := List.find?_eq_none.1 hf t ((hmem t).2 ht)
      exact absurd h1 this
    · simp

example : ∃ w, Reach .NICT w ∧ (needTimer w.tr .TIMEOUT_E ⟨1010, 0⟩ = true ∧
    needTimer w.tr .TIMEOUT_F ⟨1010, 0⟩ = false ∧ needTimer w.tr .TIMEOUT_F ⟨1100, 0⟩ = true ∧
    (w.tr.deadline .TIMEOUT_E).Normal) :=
  Ex.reach_exists Ex.options [.outgoing Ex.options, Ex.x] (by decide +kernel)

/-! ## C16 -/

/-- Clock readings are times after the epoch. -/
def ClockOk : Op → Prop
  | .exec _ n1 n2 => 0 ≤ n1.sec ∧ 0 ≤ n1.usec ∧ 0 ≤ n2.sec ∧ 0 ≤ n2.usec
  | _ => True

/-- Reachable with a clock that shows times after the epoch. -/
def ReachClock (k : Kind) (w : World) : Prop :=
  ∃ now1 now2 req t ops, 0 ≤ now1.sec ∧ 0 ≤ now1.usec ∧ 0 ≤ now2.sec ∧ 0 ≤ now2.usec ∧
    transactionInit k now1 now2 req = some (.ok t) ∧
    (World.init t).run ops = some w ∧ ∀ o ∈ ops, ClockOk o

theorem ReachClock.reach {k : Kind} {w : World} (h : ReachClock k w) : ReachO ClockOk k w := by
  obtain ⟨a, b, c, d, ops, _, _, _, _, e1, e2, e3⟩ := h
  exact ⟨a, b, c, d, ops, e1, e2, e3⟩

/-- The timers that end a transaction. -/
def lastTimers : List EvType :=
  [.TIMEOUT_B, .TIMEOUT_D, .TIMEOUT_F, .TIMEOUT_K, .TIMEOUT_H, .TIMEOUT_I, .TIMEOUT_J]

/-- The states in which a transaction waits for the network. -/
def waiting : List State :=
  [.ICT_CALLING, .ICT_COMPLETED, .NICT_TRYING, .NICT_PROCEEDING, .NICT_COMPLETED,
    .IST_COMPLETED, .IST_CONFIRMED, .NIST_COMPLETED]

theorem add_nonneg {t : TimeVal} {ms : Int} (h1 : 0 ≤ t.sec) (h2 : 0 ≤ t.usec) (h3 : 0 ≤ ms) :
    0 ≤ (add_gettimeofday t ms).sec := by
  unfold add_gettimeofday
  have h : 0 ≤ t.usec + ms * 1000 := by omega
  split
  · simp only [Int.tdiv_eq_ediv_of_nonneg h3]; omega
  · simp only [Int.tdiv_eq_ediv_of_nonneg h]; omega

/-- A timer that ends the transaction is running in every waiting state; the lengths needed to
start one later are not negative. -/
def Armed (t : Tr) : Prop :=
  match t.ctx_type with
  | .ICT => (t.state = .ICT_PRE_CALLING ∨ t.state = .ICT_CALLING → 0 ≤ t.ict.timer_b_start.sec) ∧
    (t.state = .ICT_COMPLETED → 0 ≤ t.ict.timer_d_start.sec) ∧
    (t.state ≠ .ICT_TERMINATED → 0 ≤ t.ict.timer_d_length)
  | .NICT => (t.state = .NICT_PRE_TRYING ∨ t.state = .NICT_TRYING ∨ t.state = .NICT_PROCEEDING →
      0 ≤ t.nict.timer_f_start.sec) ∧
    (t.state = .NICT_COMPLETED → 0 ≤ t.nict.timer_k_start.sec) ∧
    (t.state ≠ .NICT_TERMINATED → 0 ≤ t.nict.timer_k_length)
  | .IST => (t.state = .IST_COMPLETED → 0 ≤ t.ist.timer_h_start.sec) ∧
    (t.state = .IST_CONFIRMED → 0 ≤ t.ist.timer_i_start.sec) ∧
    (t.state ≠ .IST_TERMINATED → 0 ≤ t.ist.timer_h_length ∧ 0 ≤ t.ist.timer_i_length)
  | .NIST => (t.state = .NIST_COMPLETED → 0 ≤ t.nist.timer_j_start.sec) ∧
    (t.state ≠ .NIST_TERMINATED → 0 ≤ t.nist.timer_j_length)

theorem armed_exec {env t ev t' e r} (h : Armed t) (h1 : 0 ≤ env.now1.sec) (h2 : 0 ≤ env.now1.usec)
    (h3 : 0 ≤ env.now2.sec) (h4 : 0 ≤ env.now2.usec)
    (he : osip_transaction_execute env t ev = some (t', e, r)) : Armed t' := by
  have ha1 : ∀ {ms}, 0 ≤ ms → 0 ≤ (add_gettimeofday env.now1 ms).sec := fun h => add_nonneg h1 h2 h
  have ha2 : ∀ {ms}, 0 ≤ ms → 0 ≤ (add_gettimeofday env.now2 ms).sec := fun h => add_nonneg h3 h4 h
  clear h1 h2 h3 h4
  have hk' := exec_ctx_type he
  cases hk : t.ctx_type
  all_goals
    rw [hk] at hk'
    simp only [Armed, hk, hk'] at h ⊢
    clear hk'
    fsm_exec he hk hs ht
    fsm_prune hs
    all_goals try assumption
    all_goals simp [hs] at h ⊢
    all_goals grind

theorem reachClock_armed {k : Kind} {w : World} (h : ReachClock k w) : Armed w.tr := by
  obtain ⟨n1, n2, req, t, ops, h1, h2, h3, h4, hi, hr, ho⟩ := h
  have h0 : Armed t := by
    cases k
    · obtain ⟨p, ho, po, -, -, rfl⟩ := init_ICT hi
      refine ⟨fun _ => add_nonneg h3 h4 (by omega), by simp, fun _ => ?_⟩
      dsimp only
      split <;> omega
    · obtain ⟨p, -, rfl⟩ := init_IST hi
      refine ⟨by simp, by simp, fun _ => ?_⟩
      dsimp only
      split <;> simp
    · obtain ⟨p, ho, po, -, -, rfl⟩ := init_NICT hi
      refine ⟨fun _ => add_nonneg h1 h2 (by omega), by simp, fun _ => ?_⟩
      dsimp only
      split <;> omega
    · obtain ⟨p, -, rfl⟩ := init_NIST hi
      refine ⟨by simp, fun _ => ?_⟩
      dsimp only
      split <;> omega
  have key : ∀ ops (w w' : World), Armed w.tr → (∀ o ∈ ops, ClockOk o) → w.run ops = some w' →
      Armed w'.tr := by
    intro ops
    induction ops with
    | nil => intro w w' hi _ h; simp [World.run] at h; exact h ▸ hi
    | cons o os ih =>
      intro w w' hi ho h
      simp only [World.run, Option.bind_eq_bind, Option.bind_eq_some_iff] at h
      obtain ⟨w1, h1, h2⟩ := h
      refine ih w1 w' ?_ (fun o ho' => ho o (by simp [ho'])) h2
      rcases step_cases h1 with ⟨q, rfl, _⟩ | ⟨ev, m, _, hok, _, rfl⟩ |
        ⟨_, _, _, ev, q, t, e, r, rfl, hqq, he, rfl⟩
      · exact hi
      · exact hi
      · obtain ⟨a, b, c, d⟩ := ho _ (List.mem_cons_self)
        exact armed_exec hi a b c d he
  exact key ops _ _ h0 ho hr

theorem timerGt_sec {now t : TimeVal} (h : now.micros > t.micros) (hn : now.Normal)
    (ht : t.Normal) : timerGt now t = true := (timerGt_iff hn ht).2 h

/-- **C16**. Take any transaction that waits for the network, reached with a clock showing times
after the epoch, with no event queued. If the clock has passed every timer of the transaction, one
run of the timer loop queues an event whose execution terminates the transaction. -/
theorem c16_terminates {k : Kind} {w : World} (h : ReachClock k w) (hs : w.tr.state ∈ waiting)
    (hq : w.queue = []) {now : TimeVal}
    (hpassed : ∀ t, timerGt now (w.tr.deadline t) = true) (send : Int) (n1 n2 : TimeVal) :
    ∃ w', w.run [.tick now, .exec send n1 n2] = some w' ∧ w'.tr.state.isTerminated = true ∧
      ∃ more, w'.trace = w.trace ++ more ∧ .kill k ∈ more := by
  have hre := h.reach
  have hk := (reach_queue hre).1
  have ha := reachClock_armed h
  have hsec : ∀ t : TimeVal, 0 ≤ t.sec → (t.sec == -1) = false := by
    intro t ht
    simp
    omega
  have key : ∀ ty, timersExecute w.tr [] now = [⟨ty, none⟩] →
      (∃ t' e r, osip_transaction_execute ⟨send, n1, n2, w.next⟩ w.tr ⟨ty, none⟩ = some (t', e, r) ∧
        t'.state.isTerminated = true ∧ .kill k ∈ e) →
      ∃ w', w.run [.tick now, .exec send n1 n2] = some w' ∧ w'.tr.state.isTerminated = true ∧
        ∃ more, w'.trace = w.trace ++ more ∧ .kill k ∈ more := by
    rintro ty h1 ⟨t', e, r, h2, h3, h4⟩
    refine ⟨_, by simp [World.run, World.step, hq, h1, h2]; rfl, h3, e, rfl, h4⟩
  cases k
  · have hpb := hpassed .TIMEOUT_B
    have hpd := hpassed .TIMEOUT_D
    rcases (reach_ictInv hre).states with hst | hst | hst | hst | hst <;>
      rw [hst] at hs <;> simp [waiting] at hs
    all_goals simp only [Armed, hk, hst, forall_const, true_or, or_true] at ha
    · have h0 := hsec _ (ha.1)
      refine key .TIMEOUT_B ?_ ?_
      · simp [timersExecute, hk, timerOrder, needTimer, hst, h0, Tr.deadline] at hpb ⊢
        simp [hpb]
      · simp [osip_transaction_execute, hk, hst, tableOf, fsm_findmethod, ict_transition, H.run,
          osip_ict_timeout_b_event]
        exact ⟨_, _, ⟨rfl, rfl⟩, rfl, by simp⟩
    · have h0 := hsec _ (ha.2.1)
      refine key .TIMEOUT_D ?_ ?_
      · simp [timersExecute, hk, timerOrder, needTimer, hst, h0, Tr.deadline] at hpd ⊢
        simp [hpd]
      · simp [osip_transaction_execute, hk, hst, tableOf, fsm_findmethod, ict_transition, H.run,
          osip_ict_timeout_d_event]
        exact ⟨_, _, ⟨rfl, rfl⟩, rfl, by simp⟩
  · have hpb := hpassed .TIMEOUT_H
    have hpd := hpassed .TIMEOUT_I
    rcases (reach_istInv hre).states with hst | hst | hst | hst | hst <;>
      rw [hst] at hs <;> simp [waiting] at hs
    all_goals simp only [Armed, hk, hst, forall_const, true_or, or_true] at ha
    · have h0 := hsec _ (ha.1)
      refine key .TIMEOUT_H ?_ ?_
      · simp [timersExecute, hk, timerOrder, needTimer, hst, h0, Tr.deadline] at hpb ⊢
        simp [hpb]
      · simp [osip_transaction_execute, hk, hst, tableOf, fsm_findmethod, ist_transition, H.run,
          osip_ist_timeout_h_event]
        exact ⟨_, _, ⟨rfl, rfl⟩, rfl, by simp⟩
    · have h0 := hsec _ (ha.2.1)
      refine key .TIMEOUT_I ?_ ?_
      · simp [timersExecute, hk, timerOrder, needTimer, hst, h0, Tr.deadline] at hpd ⊢
        simp [hpd]
      · simp [osip_transaction_execute, hk, hst, tableOf, fsm_findmethod, ist_transition, H.run,
          osip_ist_timeout_i_event]
        exact ⟨_, _, ⟨rfl, rfl⟩, rfl, by simp⟩
  · have hpb := hpassed .TIMEOUT_F
    have hpd := hpassed .TIMEOUT_K
    rcases (reach_nictInv hre).states with hst | hst | hst | hst | hst <;>
      rw [hst] at hs <;> simp [waiting] at hs
    all_goals simp only [Armed, hk, hst, forall_const, true_or, or_true] at ha
    iterate 2
      · have h0 := hsec _ (ha.1)
        refine key .TIMEOUT_F ?_ ?_
        · simp [timersExecute, hk, timerOrder, needTimer, hst, h0, Tr.deadline] at hpb ⊢
          simp [hpb]
        · simp [osip_transaction_execute, hk, hst, tableOf, fsm_findmethod, nict_transition, H.run,
            osip_nict_timeout_f_event]
          exact ⟨_, _, ⟨rfl, rfl⟩, rfl, by simp⟩
    · have h0 := hsec _ (ha.2.1)
      refine key .TIMEOUT_K ?_ ?_
      · simp [timersExecute, hk, timerOrder, needTimer, hst, h0, Tr.deadline] at hpd ⊢
        simp [hpd]
      · simp [osip_transaction_execute, hk, hst, tableOf, fsm_findmethod, nict_transition, H.run,
          osip_nict_timeout_k_event]
        exact ⟨_, _, ⟨rfl, rfl⟩, rfl, by simp⟩
  · have hpb := hpassed .TIMEOUT_J
    rcases (reach_nistInv hre).states with hst | hst | hst | hst | hst <;>
      rw [hst] at hs <;> simp [waiting] at hs
    all_goals simp only [Armed, hk, hst, forall_const, true_or, or_true] at ha
    · have h0 := hsec _ (ha.1)
      refine key .TIMEOUT_J ?_ ?_
      · simp [timersExecute, hk, timerOrder, needTimer, hst, h0, Tr.deadline] at hpb ⊢
        simp [hpb]
      · simp [osip_transaction_execute, hk, hst, tableOf, fsm_findmethod, nist_transition, H.run,
          osip_nist_timeout_j_event]
        exact ⟨_, _, ⟨rfl, rfl⟩, rfl, by simp⟩

/-- A waiting INVITE client transaction and a time after all its timers. -/
example : ∃ w, ReachClock .ICT w ∧ w.tr.state ∈ waiting ∧ w.queue = [] ∧
    ∀ t, timerGt Ex.t2 (w.tr.deadline t) = true := by
  have h : (Ex.go .ICT Ex.invite [.outgoing Ex.invite, Ex.x]).any (fun w => decide
      (w.tr.state ∈ waiting ∧ w.queue = [] ∧ timerGt Ex.t2 w.tr.ict.timer_a_start = true ∧
        timerGt Ex.t2 w.tr.ict.timer_b_start = true ∧ timerGt Ex.t2 w.tr.ict.timer_d_start = true ∧
        w.tr.nict = {} ∧ w.tr.ist = {} ∧ w.tr.nist = {})) = true := by decide +kernel
  cases hg : Ex.go .ICT Ex.invite [.outgoing Ex.invite, Ex.x] with
  | none => simp [hg] at h
  | some w =>
    rw [hg] at h
    simp only [Option.any_some, decide_eq_true_eq] at h
    obtain ⟨h1, h2, h3, h4, h5, h6, h7, h8⟩ := h
    refine ⟨w, ?_, h1, h2, ?_⟩
    · unfold Ex.go Ex.start at hg
      split at hg
      · next t ht =>
        exact ⟨Ex.t0, Ex.t0, Ex.invite, t, _, by decide, by decide, by decide, by decide, ht, hg, by
          simp [ClockOk, Ex.x, Ex.t1]⟩
      · simp at hg
    · intro t
      cases t <;> simp [Tr.deadline, h3, h4, h5, h6, h7, h8] <;> decide

end Osip
