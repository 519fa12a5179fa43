import Verif.Fsm.PropsTimers

/-!
# Spacing of retransmissions: C113
-/

namespace Osip

set_option autoImplicit false

/-- The readings of the clock during an operation, in order. -/
def Op.readings : Op → List TimeVal
  | .tick now => [now]
  | .exec _ n1 n2 => [n1, n2]
  | _ => []

/-- Consecutive readings of a clock that is never set back, taken after the epoch. -/
def ClockRuns (ts : List TimeVal) : Prop :=
  (∀ t ∈ ts, t.Normal ∧ 0 ≤ t.sec) ∧ ts.Pairwise (fun a b => a.micros ≤ b.micros)

instance (ts : List TimeVal) : Decidable (ClockRuns ts) :=
  inferInstanceAs (Decidable (_ ∧ _))

/-- One thread drives the transaction, timer events come from the timer loop only; for kinds other
than INVITE clients the timer loop is run only when no event waits. -/
def PollsIdle (w : World) : List Op → Prop
  | [] => True
  | o :: os => (∀ now, o = .tick now → w.tr.ctx_type = .ICT ∨ w.queue = []) ∧ (∀ t, o ≠ .timer t) ∧
      ∀ w', w.step o = some w' → PollsIdle w' os

/-- The interval of a retransmission timer in milliseconds. -/
def Tr.interval (t : Tr) : EvType → Int
  | .TIMEOUT_A => t.ict.timer_a_length
  | .TIMEOUT_E => t.nict.timer_e_length
  | .TIMEOUT_G => t.ist.timer_g_length
  | _ => 0

/-- The timers that retransmit. -/
def retransTimers : List EvType := [.TIMEOUT_A, .TIMEOUT_E, .TIMEOUT_G]

/-- A timer event. -/
def Ev.isTimer (e : Ev) : Bool := !e.type.isMsg && e.type != .KILL_TRANSACTION

/-! ## Invariants of the transaction -/

/-- Deadlines are normalised and lengths are sensible. -/
structure PaceOk (t : Tr) : Prop where
  na : t.ict.timer_a_start.Normal
  ne : t.nict.timer_e_start.Normal
  ng : t.ist.timer_g_start.Normal
  la : t.ctx_type = .ICT → t.ict.timer_a_start.sec ≠ -1 → 500 ≤ t.ict.timer_a_length
  le : t.ctx_type = .NICT → t.nict.timer_e_start.sec ≠ -1 → 50 ≤ t.nict.timer_e_length
  le' : t.ctx_type = .NICT → t.nict.timer_e_length ≤ 0 ∨
    50 ≤ t.nict.timer_e_length ∧ t.nict.timer_e_length ≤ 4000
  lg : t.ctx_type = .IST → t.ist.timer_g_length = -1 ∨
    500 ≤ t.ist.timer_g_length ∧ t.ist.timer_g_length ≤ 4000
  lg' : t.ctx_type = .IST → t.ist.timer_g_start.sec ≠ -1 → t.ist.timer_g_length ≠ -1
  pe : t.ctx_type = .NICT → t.state = .NICT_PRE_TRYING → t.nict.timer_e_start.sec = -1
  pg : t.ctx_type = .IST → t.state = .IST_PRE_PROCEEDING ∨ t.state = .IST_PROCEEDING →
    t.ist.timer_g_start.sec = -1

theorem add_normal {t : TimeVal} {ms : Int} (hn : t.Normal) (h0 : 0 ≤ ms) :
    (add_gettimeofday t ms).Normal := by
  by_cases h : ms < 1000000
  · exact (c27_add_exact_partial hn h0 h).2
  · exact (c27_add_long hn (by omega)).2

theorem add_ge {t : TimeVal} {ms : Int} (hn : t.Normal) (h0 : 0 ≤ ms) :
    t.micros ≤ (add_gettimeofday t ms).micros := by
  by_cases h : ms < 1000000
  · have := (c27_add_exact_partial hn h0 h).1
    omega
  · have := (c27_add_long hn (show 1000000 ≤ ms by omega)).1
    have := hn.2
    omega

theorem off_normal {t : TimeVal} (h : t.Normal) : t.off.Normal := h

set_option maxHeartbeats 1000000 in
theorem paceOk_exec {env t ev t' e r} (h : PaceOk t) (h1 : env.now1.Normal) (hs : 0 ≤ env.now1.sec)
    (hx : ev.type ∈ retransTimers → (t.deadline ev.type).sec ≠ -1)
    (he : osip_transaction_execute env t ev = some (t', e, r)) : PaceOk t' := by
  have ha1 : ∀ {ms}, 0 ≤ ms → (add_gettimeofday env.now1 ms).Normal := fun h => add_normal h1 h
  have ha2 : ∀ {ms}, 0 ≤ ms → (add_gettimeofday env.now1 ms).sec ≠ -1 := fun h => by
    have := add_nonneg hs h1.1 h
    omega
  clear h1 hs
  have hoff : ∀ {t : TimeVal}, t.Normal → t.off.Normal := off_normal
  have hoff' : ∀ {t : TimeVal}, t.off.sec = -1 := rfl
  have h0 := h
  obtain ⟨na, ne, ng, la, le, le', lg, lg', pe, pg⟩ := h
  cases hk : t.ctx_type
  all_goals
    fsm_exec he hk hs ht
    fsm_prune hs
    all_goals try exact h0
    all_goals simp [ht, retransTimers, Tr.deadline] at hx
    all_goals simp [hk, hs] at la le le' lg lg' pe pg
    all_goals constructor
    all_goals try assumption
    all_goals simp only [hk, reduceCtorEq, false_implies, forall_const]
    all_goals try simp only [DEFAULT_T1, DEFAULT_T2, DEFAULT_T1_TCP_PROGRESS]
    all_goals grind

theorem paceOk_init {k n1 n2 req t} (h : transactionInit k n1 n2 req = some (.ok t))
    (h1 : n1.Normal) : PaceOk t := by
  have hz : TimeVal.Normal ⟨0, 0⟩ := by decide
  have hm : TimeVal.Normal ⟨-1, 0⟩ := by decide
  cases k
  · obtain ⟨p, ho, po, -, -, rfl⟩ := init_ICT h
    exact ⟨add_normal h1 (by omega), hz, hz, by simp, by simp, by simp, by simp, by simp,
      by simp, by simp⟩
  · obtain ⟨p, -, rfl⟩ := init_IST h
    refine ⟨hz, hz, hm, by simp, by simp, by simp, fun _ => ?_, by simp,
      by simp, by simp⟩
    dsimp only
    split <;> simp
  · obtain ⟨p, ho, po, -, -, rfl⟩ := init_NICT h
    exact ⟨hz, hm, hz, by simp, by simp, by simp, by simp, by simp,
      by simp, by simp⟩
  · obtain ⟨p, -, rfl⟩ := init_NIST h
    exact ⟨hz, hz, hz, by simp, by simp, by simp, by simp, by simp,
      by simp, by simp⟩

/-- The states after a retransmission timer was started. -/
def afterStates : EvType → List State
  | .TIMEOUT_A => [.ICT_CALLING, .ICT_PROCEEDING, .ICT_COMPLETED, .ICT_TERMINATED]
  | .TIMEOUT_E => [.NICT_TRYING, .NICT_PROCEEDING, .NICT_COMPLETED, .NICT_TERMINATED]
  | .TIMEOUT_G => [.IST_COMPLETED, .IST_CONFIRMED, .IST_TERMINATED]
  | _ => []

/-- A retransmission timer is off, or its deadline is not before `D`. -/
def After (x : EvType) (D : Int) (t : Tr) : Prop :=
  t.state ∈ afterStates x ∧ ((t.deadline x).sec ≠ -1 → D ≤ (t.deadline x).micros)

/-- A retransmission timer is off for good. -/
def Off (x : EvType) (t : Tr) : Prop :=
  t.state ∈ afterStates x ∧ (t.deadline x).sec = -1 ∧
    (t.interval x ≤ 0 ∨ t.state.isTerminated = true)

theorem off_exec {x env t ev t' e r} (hx : x ∈ retransTimers) (h : Off x t) (hne : ev.type ≠ x)
    (he : osip_transaction_execute env t ev = some (t', e, r)) : Off x t' := by
  have hoff' : ∀ {t : TimeVal}, t.off.sec = -1 := rfl
  have h0 := h
  obtain ⟨h1, h2, h3⟩ := h
  cases hk : t.ctx_type
  all_goals
    fsm_exec he hk hs ht
    fsm_prune hs
    all_goals try exact h0
    all_goals rw [ht] at hne
    all_goals (simp only [retransTimers, List.mem_cons, List.not_mem_nil, or_false] at hx; rcases hx with rfl | rfl | rfl)
    all_goals simp [hs, afterStates, Tr.deadline, Tr.interval, State.isTerminated] at h1 h2 h3 hne
    all_goals simp [Off, afterStates, Tr.deadline, Tr.interval, State.isTerminated]
    all_goals grind

theorem after_exec {x D env t ev t' e r} (hx : x ∈ retransTimers) (hp : PaceOk t) (h : After x D t)
    (h1 : env.now1.Normal) (hD : x = .TIMEOUT_E → D ≤ env.now1.micros + 4000000)
    (hne : ev.type ≠ x)
    (he : osip_transaction_execute env t ev = some (t', e, r)) : After x D t' := by
  have hoff' : ∀ {t : TimeVal}, t.off.sec = -1 := rfl
  have hadd : (add_gettimeofday env.now1 4000).micros = env.now1.micros + 4000000 :=
    (c27_add_exact_partial h1 (by omega) (by omega)).1
  have h0 := h
  obtain ⟨h1, h2⟩ := h
  cases hk : t.ctx_type
  all_goals
    fsm_exec he hk hs ht
    fsm_prune hs
    all_goals try exact h0
    all_goals rw [ht] at hne
    all_goals (simp only [retransTimers, List.mem_cons, List.not_mem_nil, or_false] at hx; rcases hx with rfl | rfl | rfl)
    all_goals simp [hs, afterStates, Tr.deadline, Tr.interval] at h1 h2 hne hD
    all_goals simp [After, afterStates, Tr.deadline, DEFAULT_T2]
    all_goals grind

/-- The events whose execution sends the message that the timer retransmits. -/
def startsTimer : EvType → List EvType
  | .TIMEOUT_A => [.TIMEOUT_A]
  | .TIMEOUT_E => [.SND_REQUEST, .TIMEOUT_E]
  | .TIMEOUT_G => [.SND_STATUS_3456XX, .TIMEOUT_G]
  | _ => []

theorem dropMsg_sends (ev : Ev) : sends (dropMsg ev) = [] := by
  unfold dropMsg
  split <;> try rfl
  unfold freeOpt
  split <;> rfl

/-- Sending the message starts the timer or switches it off. -/
theorem start_exec {x env t ev t' e r} (hx : x ∈ retransTimers) (hp : PaceOk t)
    (hk' : x ∈ kindTimers t.ctx_type) (hev : ev.type ∈ startsTimer x) (hsend : sends e ≠ [])
    (hdue : ev.type = x → (t.deadline x).sec ≠ -1)
    (he : osip_transaction_execute env t ev = some (t', e, r)) :
    t'.state ∈ afterStates x ∧ (Off x t' ∨
      (0 ≤ t'.interval x ∧ t'.deadline x = add_gettimeofday env.now1 (t'.interval x))) := by
  have hoff' : ∀ {t : TimeVal}, t.off.sec = -1 := rfl
  obtain ⟨na, ne, ng, la, le, le', lg, lg', pe, pg⟩ := hp
  cases hk : t.ctx_type
  all_goals
    rw [hk] at hk'
    fsm_exec he hk hs ht
    all_goals try (exact absurd (dropMsg_sends ev) hsend)
    all_goals try (exact absurd rfl hsend)
    all_goals (simp only [retransTimers, List.mem_cons, List.not_mem_nil, or_false] at hx; rcases hx with rfl | rfl | rfl)
    all_goals simp [kindTimers] at hk'
    all_goals rw [ht] at hev hdue
    all_goals simp [startsTimer] at hev
    all_goals simp [Tr.deadline] at hdue
    all_goals simp [hk, hs] at la le le' lg lg' pe pg
    all_goals simp [Off, afterStates, Tr.deadline, Tr.interval, State.isTerminated, hs]
    all_goals try simp only [DEFAULT_T1, DEFAULT_T2, DEFAULT_T1_TCP_PROGRESS]
    all_goals grind

/-- The timer's own event starts it again or switches it off. -/
theorem own_exec {x env t ev t' e r} (hx : x ∈ retransTimers)
    (hst : t.state ∈ rfcTimerStates x) (hk' : x ∈ kindTimers t.ctx_type)
    (hev : ev.type = x)
    (he : osip_transaction_execute env t ev = some (t', e, r)) :
    t'.state ∈ afterStates x ∧ (Off x t' ∨
      t'.deadline x = add_gettimeofday env.now1 (t'.interval x)) := by
  have hoff' : ∀ {t : TimeVal}, t.off.sec = -1 := rfl
  cases hk : t.ctx_type
  all_goals
    rw [hk] at hk'
    fsm_exec he hk hs ht
    fsm_prune hs
    all_goals first
      | rw [hev] at ht
      | rw [hev] at hs
    all_goals (simp only [retransTimers, List.mem_cons, List.not_mem_nil, or_false] at hx; rcases hx with rfl | rfl | rfl)
    all_goals simp [kindTimers] at hk'
    all_goals (try cases ht)
    all_goals simp_all [Off, afterStates, rfcTimerStates, Tr.deadline, Tr.interval]
    all_goals first
      | grind
      | (simp [fsm_findmethod, tableOf, ict_transition, ist_transition] at hs; done)
      | (rcases hst with hst | hst <;> simp [hst, fsm_findmethod, tableOf, nict_transition] at hs; done)

/-! ## Invariant of runs -/

/-- Readings of the clock from time `T` on. -/
def ClockFrom (T : Int) : List TimeVal → Prop
  | [] => True
  | t :: ts => T ≤ t.micros ∧ t.Normal ∧ 0 ≤ t.sec ∧ ClockFrom t.micros ts

/-- The last reading. -/
def lastClock (T : Int) : List TimeVal → Int
  | [] => T
  | t :: ts => lastClock t.micros ts

theorem clockFrom_of {T : Int} : ∀ {ts}, ClockRuns ts → (∀ t ∈ ts, T ≤ t.micros) → ClockFrom T ts
  | [], _, _ => trivial
  | t :: ts, ⟨h1, h2⟩, h3 => by
    rw [List.pairwise_cons] at h2
    exact ⟨h3 t (by simp), (h1 t (by simp)).1, (h1 t (by simp)).2,
      clockFrom_of ⟨fun u hu => h1 u (by simp [hu]), h2.2⟩ h2.1⟩

theorem clockFrom_append {T : Int} {a b : List TimeVal} :
    ClockFrom T (a ++ b) ↔ ClockFrom T a ∧ ClockFrom (lastClock T a) b := by
  induction a generalizing T with
  | nil => simp [ClockFrom, lastClock]
  | cons t ts ih => simp [ClockFrom, lastClock, ih, and_assoc]

theorem lastClock_ge {T : Int} {a : List TimeVal} (h : ClockFrom T a) : T ≤ lastClock T a := by
  induction a generalizing T with
  | nil => simp [lastClock]
  | cons t ts ih =>
    have := ih h.2.2.2
    simp only [lastClock]
    have := h.1
    omega

/-- Only the oldest event can be a timer event, and that timer is due. -/
structure Paced (w : World) (T : Int) : Prop where
  pace : PaceOk w.tr
  tail : ∀ e ∈ w.queue.tail, e.isTimer = false
  head : ∀ e, w.queue.head? = some e → e.isTimer = true →
    e.type ∈ kindTimers w.tr.ctx_type ∧ w.tr.state ∈ rfcTimerStates e.type ∧
    (w.tr.deadline e.type).sec ≠ -1 ∧ (e.type ∈ retransTimers → (w.tr.deadline e.type).micros < T)

theorem PaceOk.normal {t : Tr} (h : PaceOk t) {x : EvType} (hx : x ∈ retransTimers) :
    (t.deadline x).Normal := by
  simp only [retransTimers, List.mem_cons, List.not_mem_nil, or_false] at hx
  rcases hx with rfl | rfl | rfl
  · exact h.na
  · exact h.ne
  · exact h.ng

theorem retrans_isTimer {e : Ev} (h : e.type ∈ retransTimers) : e.isTimer = true := by
  simp only [retransTimers, List.mem_cons, List.not_mem_nil, or_false] at h
  rcases h with h | h | h <;> simp [Ev.isTimer, h, EvType.isMsg]

theorem needTimer_state {tr : Tr} {t : EvType} {now : TimeVal} (h : needTimer tr t now = true) :
    tr.state ∈ rfcTimerStates t ∧ (tr.deadline t).sec ≠ -1 ∧ timerGt now (tr.deadline t) = true := by
  cases t <;> simp [needTimer, Tr.deadline, rfcTimerStates] at h ⊢ <;> grind

/-- Queueing an event that is not a timer event. -/
theorem paced_add {w : World} {T : Int} (h : Paced w T) {ev : Ev} (he : ev.isTimer = false)
    (n : Nat) (tr : List Eff) :
    Paced { w with queue := w.queue ++ [ev], next := n, trace := tr } T := by
  refine ⟨h.pace, ?_, ?_⟩
  · have := h.tail
    cases hq : w.queue <;> simp [hq] at this ⊢
    grind
  · have := h.head
    cases hq : w.queue <;> simp [hq] at this ⊢
    · simp [he]
    · exact this

theorem Paced.mono {w : World} {T T' : Int} (h : Paced w T) (hT : T ≤ T') : Paced w T' :=
  ⟨h.pace, h.tail, fun e h1 h2 => by
    obtain ⟨a, b, c, d⟩ := h.head e h1 h2
    exact ⟨a, b, c, fun hx => by have := d hx; omega⟩⟩

theorem in_isTimer (m : Msg) (s : Option Ref) : Ev.isTimer ⟨evt_type_incoming m, s⟩ = false := by
  simp only [Ev.isTimer, evt_type_incoming]
  grind [EvType.isMsg]

theorem out_isTimer (m : Msg) (s : Option Ref) : Ev.isTimer ⟨evt_type_outgoing m, s⟩ = false := by
  simp only [Ev.isTimer, evt_type_outgoing]
  grind [EvType.isMsg]

theorem paced_step {w w' : World} {o : Op} {T : Int} (h : Paced w T) (hs : w.step o = some w')
    (hidle : ∀ now, o = .tick now → w.tr.ctx_type = .ICT ∨ w.queue = []) (htm : ∀ t, o ≠ .timer t)
    (hc : ClockFrom T o.readings) : Paced w' (lastClock T o.readings) := by
  cases o with
  | incoming m =>
    simp only [World.step] at hs
    split at hs <;> simp only [Option.some.injEq] at hs <;> subst hs
    · exact paced_add h (in_isTimer _ _) _ _
    · exact h
  | outgoing m =>
    simp only [World.step] at hs
    split at hs <;> simp only [Option.some.injEq] at hs <;> subst hs
    · exact paced_add h (out_isTimer _ _) _ _
    · exact h
  | tick now =>
    simp only [World.step, Option.some.injEq] at hs
    subst hs
    obtain ⟨c1, c2, c3, -⟩ := hc
    simp only [Op.readings, lastClock]
    by_cases hq : w.queue = []
    · rcases timersExecute_cases w.tr w.queue now with h0 | ⟨t, t1, t2, t3, t4, t5⟩
      · rw [h0, List.append_nil]; exact h.mono c1
      · rw [t5, hq]
        refine ⟨h.pace, by simp, ?_⟩
        intro e he _
        simp only [List.nil_append, List.head?_cons, Option.some.injEq] at he
        subst he
        obtain ⟨a, b, c⟩ := needTimer_state t4
        refine ⟨?_, a, b, fun hx => ?_⟩
        · revert t3
          cases w.tr.ctx_type <;> simp [timerOrder, kindTimers] <;> grind
        · exact (timerGt_iff c2 (h.pace.normal hx)).1 c
    · have hi := (hidle now rfl).resolve_right hq
      have h0 : timersExecute w.tr w.queue now = [] := by simp [timersExecute, hi, hq]
      rw [h0, List.append_nil]; exact h.mono c1
  | timer t => exact absurd rfl (htm t)
  | kill =>
    simp only [World.step, Option.some.injEq] at hs
    subst hs
    exact paced_add h (by simp [Ev.isTimer]) _ _
  | exec send n1 n2 =>
    obtain ⟨c1, c2, c3, c4, c5, c6, -⟩ := hc
    simp only [World.step] at hs
    split at hs
    · simp only [Option.some.injEq] at hs
      subst hs
      exact h.mono (by simp only [Op.readings, lastClock]; omega)
    · next ev q hq =>
      simp only [Option.bind_eq_bind, Option.bind_eq_some_iff, Prod.exists, Option.pure_def,
        Option.some.injEq] at hs
      obtain ⟨t, e, r, h1, rfl⟩ := hs
      have htl := h.tail
      rw [hq] at htl
      refine ⟨paceOk_exec h.pace c2 c3 ?_ h1, fun e he => htl e (List.mem_of_mem_tail he), ?_⟩
      · intro hx
        exact (h.head ev (by simp [hq]) (retrans_isTimer hx)).2.2.1
      · intro e he ht
        have := htl e (List.mem_of_mem_head? he)
        simp [this] at ht

theorem interval_ge {t : Tr} (h : PaceOk t) {x : EvType} (hx : x ∈ retransTimers)
    (hk : x ∈ kindTimers t.ctx_type) (ho : (t.deadline x).sec ≠ -1) :
    50 ≤ t.interval x ∧ (x ≠ .TIMEOUT_A → t.interval x ≤ 4000) := by
  simp only [retransTimers, List.mem_cons, List.not_mem_nil, or_false] at hx
  obtain ⟨na, ne, ng, la, le, le', lg, lg', pe, pg⟩ := h
  rcases hx with rfl | rfl | rfl <;> cases hc : t.ctx_type <;> simp [hc, kindTimers] at hk <;>
    simp [Tr.deadline, Tr.interval, hc] at * <;> grind

/-- A retransmission timer is not due before `D`, or off for good: kept by every operation. -/
theorem after_step {w w' : World} {o : Op} {T : Int} (h : Paced w T) (hs : w.step o = some w')
    (hc : ClockFrom T o.readings) {x : EvType} (hx : x ∈ retransTimers) :
    (∀ D, (x = .TIMEOUT_E → D ≤ T + 4000000) → After x D w.tr → After x D w'.tr) ∧
    (Off x w.tr → Off x w'.tr) := by
  rcases step_cases hs with ⟨q, rfl, _⟩ | ⟨ev, m, _, hok, _, rfl⟩ |
    ⟨_, n1, n2, ev, q, t, e, r, rfl, hq, he, rfl⟩
  · exact ⟨fun _ _ h => h, id⟩
  · exact ⟨fun _ _ h => h, id⟩
  · obtain ⟨c1, c2, c3, -⟩ := hc
    by_cases hev : ev.type = x
    · obtain ⟨a1, a2, a3, a4⟩ := h.head ev (by simp [hq]) (retrans_isTimer (hev ▸ hx))
      rw [hev] at a1 a2 a3 a4
      refine ⟨fun D _ ⟨_, hD⟩ => ?_, fun h2 => absurd h2.2.1 a3⟩
      have hD := hD a3
      have hp := paceOk_exec (env := ⟨_, n1, n2, _⟩) h.pace c2 c3 (fun _ => hev ▸ a3) he
      have hk := exec_ctx_type he
      obtain ⟨b1, b2⟩ := own_exec hx a2 a1 hev he
      refine ⟨b1, fun hne => ?_⟩
      rcases b2 with b2 | b2
      · exact absurd b2.2.1 hne
      · have h5 := interval_ge hp hx (hk ▸ a1) hne
        have h6 : n1.micros ≤ _ := add_ge (ms := t.interval x) c2 (by omega)
        have := a4 hx
        show D ≤ (t.deadline x).micros
        rw [b2]
        show D ≤ (add_gettimeofday n1 (t.interval x)).micros
        omega
    · refine ⟨fun D hD ha => after_exec hx h.pace ha c2 ?_ hev he, fun ho => off_exec hx ho hev he⟩
      intro hE
      have := hD hE
      show D ≤ n1.micros + 4000000
      omega

theorem after_run {x : EvType} (hx : x ∈ retransTimers) : ∀ (ops : List Op) (w w' : World) (T : Int),
    Paced w T → w.run ops = some w' → PollsIdle w ops → ClockFrom T (ops.flatMap Op.readings) →
    Paced w' (lastClock T (ops.flatMap Op.readings)) ∧
    (∀ D, (x = .TIMEOUT_E → D ≤ T + 4000000) → After x D w.tr → After x D w'.tr) ∧
    (Off x w.tr → Off x w'.tr) ∧ w'.tr.ctx_type = w.tr.ctx_type := by
  intro ops
  induction ops with
  | nil =>
    intro w w' T h hr _ _
    simp only [World.run, Option.some.injEq] at hr
    subst hr
    exact ⟨h, fun _ _ h => h, id, rfl⟩
  | cons o os ih =>
    intro w w' T h hr hi hc
    simp only [World.run, Option.bind_eq_bind, Option.bind_eq_some_iff] at hr
    obtain ⟨w1, h1, h2⟩ := hr
    simp only [List.flatMap_cons, clockFrom_append] at hc
    obtain ⟨c1, c2⟩ := hc
    have hp := paced_step h h1 hi.1 hi.2.1 c1
    obtain ⟨b1, b2⟩ := after_step h h1 c1 hx
    obtain ⟨d1, d2, d3, d4⟩ := ih w1 w' _ hp h2 (hi.2.2 _ h1) c2
    have hge := lastClock_ge c1
    refine ⟨?_, fun D hD ha => d2 D (fun hE => ?_) (b1 D hD ha), fun ho => d3 (b2 ho), ?_⟩
    · simp only [List.flatMap_cons]
      have : ∀ (a b : List TimeVal) (T : Int), lastClock T (a ++ b) = lastClock (lastClock T a) b := by
        intro a
        induction a with
        | nil => intro b T; rfl
        | cons t ts ih => intro b T; exact ih b _
      rw [this]
      exact d1
    · have := hD hE
      omega
    · rw [d4]
      rcases step_cases h1 with ⟨q, rfl, _⟩ | ⟨ev, m, _, hok, _, rfl⟩ |
        ⟨_, n1, n2, ev, q, t, e, r, rfl, hq, he, rfl⟩
      · rfl
      · rfl
      · exact exec_ctx_type he

theorem paced_init {k n1 n2 req t} (h : transactionInit k n1 n2 req = some (.ok t))
    (h1 : n1.Normal) (T : Int) : Paced (World.init t) T :=
  ⟨paceOk_init h h1, by simp [World.init], by simp [World.init]⟩

theorem pollsIdle_append {a b : List Op} : ∀ {w w' : World}, PollsIdle w (a ++ b) →
    w.run a = some w' → PollsIdle w a ∧ PollsIdle w' b := by
  induction a with
  | nil => intro w w' h hr; simp only [World.run, Option.some.injEq] at hr; subst hr; exact ⟨trivial, h⟩
  | cons o os ih =>
    intro w w' h hr
    simp only [World.run, Option.bind_eq_bind, Option.bind_eq_some_iff] at hr
    obtain ⟨w1, h1, h2⟩ := hr
    obtain ⟨a1, a2, a3⟩ := h
    refine ⟨⟨a1, a2, fun w2 h3 => ?_⟩, (ih (a3 _ h1) h2).2⟩
    rw [h1] at h3
    cases h3
    exact (ih (a3 _ h1) h2).1

/-! ## C113 -/

/-- **C113** (one event per timeout; the part that holds). One thread drives a transaction; for
kinds other than INVITE clients it runs the timer loop only when no event waits. Then at most one
timer event waits at any time.
Missing: timer loops that run while events wait, or in another thread (`c113_violated`). -/
theorem c113_once_partial {k : Kind} {n1 n2 : TimeVal} {req : Msg} {t : Tr} {ops : List Op}
    {w : World} (hi : transactionInit k n1 n2 req = some (.ok t))
    (hr : (World.init t).run ops = some w) (hidle : PollsIdle (World.init t) ops)
    (hclk : ClockRuns (n1 :: n2 :: ops.flatMap Op.readings)) :
    w.queue.countP Ev.isTimer ≤ 1 := by
  have hc := clockFrom_of (T := n1.micros) hclk (by
    intro u hu
    have := List.pairwise_cons.1 hclk.2
    rcases List.mem_cons.1 hu with rfl | hu
    · omega
    · exact this.1 u hu)
  obtain ⟨-, c2, -, -, -, -, c3⟩ := hc
  obtain ⟨h1, -⟩ := after_run (x := .TIMEOUT_A) (by simp [retransTimers]) ops _ _ _
    (paced_init hi c2 _) hr hidle c3
  have := h1.tail
  cases hq : w.queue with
  | nil => simp
  | cons e q =>
    rw [hq] at this
    have h0 : q.countP Ev.isTimer = 0 := by
      rw [List.countP_eq_zero]
      intro a ha
      simp [this a ha]
    rw [List.countP_cons, h0]
    split <;> omega

/-- **C113** (spacing; the part that holds). Drive a transaction as in `c113_once_partial`. Let an
execution send the message that timer `x` retransmits: the first sending of a non-INVITE request or
of a 3xx-6xx response, or a retransmission by the timer. Every later execution of the event of `x`
comes after more than the interval to which the timer was then set.
Intervals of 1000 s and more, for which adding a delay is inexact (C27), are left out; timer B ends
an INVITE transaction after 32 s.
Missing: the first sending of an INVITE, timer loops that run while events wait or in another
thread (`c113_violated`). -/
theorem c113_spacing_partial {k : Kind} {n1 n2 : TimeVal} {req : Msg} {t : Tr}
    {pre mid : List Op} {s1 s2 : Int} {a1 b1 a2 b2 : TimeVal} {w1 w1' w2 : World} {e1 e2 : Ev}
    {q1 q2 : List Ev} {more : List Eff} {x : EvType} (hx : x ∈ retransTimers)
    (hi : transactionInit k n1 n2 req = some (.ok t))
    (hr1 : (World.init t).run pre = some w1) (hq1 : w1.queue = e1 :: q1)
    (he1 : e1.type ∈ startsTimer x) (hs : w1.step (.exec s1 a1 b1) = some w1')
    (hmore : w1'.trace = w1.trace ++ more) (hsend : sends more ≠ [])
    (hr2 : w1'.run mid = some w2) (hq2 : w2.queue = e2 :: q2) (he2 : e2.type = x)
    (hidle : PollsIdle (World.init t) (pre ++ .exec s1 a1 b1 :: mid))
    (hclk : ClockRuns (n1 :: n2 ::
      (pre ++ Op.exec s1 a1 b1 :: mid ++ [Op.exec s2 a2 b2]).flatMap Op.readings))
    (hlong : w1'.tr.interval x < 1000000) :
    50 ≤ w1'.tr.interval x ∧ a1.micros + 1000 * w1'.tr.interval x < a2.micros := by
  have hc := clockFrom_of (T := n1.micros) hclk (by
    intro u hu
    have := List.pairwise_cons.1 hclk.2
    rcases List.mem_cons.1 hu with rfl | hu
    · omega
    · exact this.1 u hu)
  obtain ⟨-, c2, -, -, -, -, c3⟩ := hc
  simp only [List.flatMap_append, List.append_assoc, clockFrom_append, List.flatMap_cons,
    List.cons_append] at c3
  obtain ⟨d1, d2, d3, d4⟩ := c3
  obtain ⟨i1, i2⟩ := pollsIdle_append hidle hr1
  obtain ⟨h1, -, -, hk1⟩ := after_run hx pre _ _ _ (paced_init hi c2 _) hr1 i1 d1
  have h1' := paced_step h1 hs i2.1 i2.2.1 d2
  obtain ⟨h2, ha, ho, hk2⟩ := after_run hx mid _ _ _ h1' hr2 (i2.2.2 _ hs) d3
  obtain ⟨p1, p2, p3, p4⟩ := h2.head e2 (by simp [hq2]) (retrans_isTimer (he2 ▸ hx))
  rw [he2] at p1 p2 p3 p4
  -- the first execution
  rcases step_cases hs with ⟨q, rfl, _⟩ | ⟨ev, m, _, hok, h, rfl⟩ |
    ⟨_, _, _, ev, q, t', e, r, heq, hq, he, rfl⟩
  · exfalso
    have : more = [] := by
      have : w1.trace = w1.trace ++ more := hmore
      simpa using this
    rw [this] at hsend
    exact hsend rfl
  · rcases h with h | h <;> cases h
  · cases heq
    rw [hq1] at hq
    cases hq
    simp only [List.append_cancel_left_eq] at hmore
    subst hmore
    have hkk : x ∈ kindTimers w1.tr.ctx_type := by
      rw [hk2] at p1
      have := exec_ctx_type he
      exact this ▸ p1
    obtain ⟨g1, g2⟩ := start_exec hx h1.pace hkk he1 hsend
      (fun h => h ▸ (h1.head e1 (by simp [hq1]) (retrans_isTimer (h ▸ hx))).2.2.1) he
    rcases g2 with g2 | ⟨g2, g3⟩
    · exact absurd (ho g2).2.1 p3
    · obtain ⟨f1, f2, f3, f4⟩ := d2
      have hadd := (c27_add_exact_partial f2 g2 hlong).1
      have hne : (t'.deadline x).sec ≠ -1 := by
        rw [g3]
        have := add_nonneg f3 f2.1 g2
        show (add_gettimeofday a1 (t'.interval x)).sec ≠ -1
        omega
      have hint := interval_ge h1'.pace hx (by rw [exec_ctx_type he]; exact hkk) hne
      refine ⟨hint.1, ?_⟩
      have hA : After x (a1.micros + 1000 * t'.interval x) t' := by
        refine ⟨g1, fun _ => ?_⟩
        rw [g3]
        show _ ≤ (add_gettimeofday a1 (t'.interval x)).micros
        rw [hadd]
        omega
      have hA2 := ha _ (fun hE => by
        have hi := hint.2 (by rw [hE]; simp)
        have : a1.micros ≤ lastClock (lastClock n2.micros (pre.flatMap Op.readings)) (Op.readings (.exec s1 a1 b1)) := by
          have := f4
          simp only [Op.readings, lastClock]
          exact this.1
        show a1.micros + 1000 * t'.interval x ≤ _
        have : t'.interval x ≤ 4000 := hi
        omega) hA
      have q1 := hA2.2 p3
      have q2 := p4 hx
      have q3 := d4.1.1
      exact Int.lt_of_le_of_lt q1 (Int.lt_of_lt_of_le q2 q3)

theorem any_exists {α : Type} {o : Option α} {P : α → Prop} [DecidablePred P]
    (h : o.any (fun a => decide (P a)) = true) : ∃ a, o = some a ∧ P a := by
  cases o with
  | none => simp at h
  | some a => exact ⟨a, rfl, by simpa using h⟩

namespace Ex

def at_ (s : Int) : TimeVal := ⟨s, 0⟩

/-- The INVITE is answered by 486, which is not acknowledged. -/
def istPre : List Op :=
  [.incoming invite, .exec 0 (at_ 1000) (at_ 1000), .outgoing (response 486 "UDP" "INVITE"),
   .exec 0 (at_ 1000) (at_ 1000)]

/-- A request is sent and not answered. -/
def nictPre : List Op := [.outgoing options, .exec 0 (at_ 1000) (at_ 1000)]

/-- The timer loop runs before each execution. -/
def oncePolled : List Op := [.tick (at_ 1002), .exec 0 (at_ 1002) (at_ 1002), .tick (at_ 1004),
  .exec 0 (at_ 1004) (at_ 1004)]

/-- The timer loop runs twice, then the events are executed. -/
def twicePolled : List Op := [.tick (at_ 1002), .tick (at_ 1002), .exec 0 (at_ 1002) (at_ 1002),
  .exec 0 (at_ 1002) (at_ 1002)]

/-- The INVITE is submitted ten seconds after its transaction was created. -/
def lateInvite : List Op := [.outgoing invite, .exec 0 (at_ 1010) (at_ 1010), .tick (at_ 1010),
  .exec 0 (at_ 1010) (at_ 1010)]

end Ex

/-- The hypotheses of the two theorems hold in a run with two retransmissions. -/
example : (∃ w, Ex.go .IST Ex.invite (Ex.istPre ++ Ex.oncePolled) = some w ∧
      (sends w.trace).length = 3 ∧ w.tr.interval .TIMEOUT_G = 2000) ∧
    ClockRuns (Ex.t0 :: Ex.t0 :: (Ex.istPre ++ Ex.oncePolled).flatMap Op.readings) :=
  ⟨any_exists (by decide +kernel), by decide +kernel⟩

example : (∃ w, Ex.go .ICT Ex.invite ([.outgoing Ex.invite, .exec 0 (Ex.at_ 1000) (Ex.at_ 1000)] ++
      Ex.oncePolled) = some w ∧ (sends w.trace).length = 3 ∧ w.tr.interval .TIMEOUT_A = 2000) :=
  any_exists (by decide +kernel)

/-- **C113 is violated** for INVITE servers and non-INVITE clients in one thread: the timer loops
of these kinds do not look at the queue, so when the timer loop runs twice before the events are
executed the message is retransmitted twice at one instant, and the interval is doubled twice. -/
theorem c113_violated :
    ClockRuns (Ex.t0 :: Ex.t0 :: (Ex.istPre ++ Ex.twicePolled).flatMap Op.readings) ∧
    ClockRuns (Ex.t0 :: Ex.t0 :: (Ex.nictPre ++ Ex.twicePolled).flatMap Op.readings) ∧
    (∃ w, Ex.go .IST Ex.invite Ex.istPre = some w ∧ (sends w.trace).length = 1) ∧
    (∃ w, Ex.go .IST Ex.invite (Ex.istPre ++ Ex.twicePolled) = some w ∧
      (sends w.trace).length = 3 ∧ w.tr.interval .TIMEOUT_G = 2000) ∧
    (∃ w, Ex.go .NICT Ex.options Ex.nictPre = some w ∧ (sends w.trace).length = 1) ∧
    (∃ w, Ex.go .NICT Ex.options (Ex.nictPre ++ Ex.twicePolled) = some w ∧
      (sends w.trace).length = 3 ∧ w.tr.interval .TIMEOUT_E = 2000) :=
  ⟨by decide +kernel, by decide +kernel, any_exists (by decide +kernel),
    any_exists (by decide +kernel), any_exists (by decide +kernel), any_exists (by decide +kernel)⟩

/-- The run without the second timer loop retransmits once: the INVITE client of the same schedule. -/
example : ∃ w, Ex.go .ICT Ex.invite ([.outgoing Ex.invite, .exec 0 (Ex.at_ 1000) (Ex.at_ 1000)] ++
      Ex.twicePolled) = some w ∧ (sends w.trace).length = 2 ∧ w.tr.interval .TIMEOUT_A = 1000 :=
  any_exists (by decide +kernel)

/-- **C113 is violated** for the first retransmission of an INVITE, in one thread: timer A starts
when the transaction is created (src/osip2/ict.c:81-82), not when the INVITE is sent. An INVITE
queued ten seconds after the creation is sent twice at one instant. -/
theorem c113_violated_first :
    ClockRuns (Ex.t0 :: Ex.t0 :: Ex.lateInvite.flatMap Op.readings) ∧
    (∃ t, transactionInit .ICT Ex.t0 Ex.t0 Ex.invite = some (.ok t) ∧
      PollsIdle (World.init t) Ex.lateInvite) ∧
    ∃ w, Ex.go .ICT Ex.invite Ex.lateInvite = some w ∧ (sends w.trace).length = 2 ∧
      w.log.map (fun d => d.ev.type) = [.SND_REQINVITE, .TIMEOUT_A] := by
  refine ⟨by decide +kernel, ?_, any_exists (by decide +kernel)⟩
  have h : ∃ t, transactionInit .ICT Ex.t0 Ex.t0 Ex.invite = some (.ok t) := ⟨_, rfl⟩
  obtain ⟨t, ht⟩ := h
  refine ⟨t, ht, ?_⟩
  have key : ∀ ops (w : World), w.tr.ctx_type = .ICT → (∀ o ∈ ops, TimersInOrder o) →
      PollsIdle w ops := by
    intro ops
    induction ops with
    | nil => intro w _ _; trivial
    | cons o os ih =>
      intro w hk ho
      refine ⟨fun _ _ => .inl hk, ho o (by simp), fun w' hs => ih w' ?_ (fun o h => ho o (by simp [h]))⟩
      rcases step_cases hs with ⟨q, rfl, _⟩ | ⟨ev, m, _, hok, _, rfl⟩ |
        ⟨_, n1, n2, ev, q, t, e, r, rfl, hq, he, rfl⟩
      · exact hk
      · exact hk
      · exact (exec_ctx_type he).trans hk
  refine key _ _ (init_shape ht).1 ?_
  intro o ho u hu
  subst hu
  simp [Ex.lateInvite] at ho

/-- One execution of the oldest event during which another thread runs the timer loop at time
`poll`: the event is already taken from the queue, the transaction is not yet changed. The lists of
transactions are locked by the timer loop (src/osip2/osip.c:1439-1441) but not while events are
executed (src/osip2/osip.c:1074-1089). -/
def World.execPolled (w : World) (poll : TimeVal) (send : Int) (n1 n2 : TimeVal) : Option World :=
  match w.queue with
  | [] => none
  | e :: q => ({ w with queue := e :: (q ++ timersExecute w.tr q poll) } : World).step
      (.exec send n1 n2)

/-- **C113 is violated** for INVITE clients when the timer loop runs in another thread: during the
execution of a timeout the queue is empty and the old deadline is still in force, so a second
timeout is queued and the INVITE is retransmitted twice at one instant. -/
theorem c113_violated_threads :
    ∃ w w', Ex.go .ICT Ex.invite [.outgoing Ex.invite, .exec 0 (Ex.at_ 1000) (Ex.at_ 1000),
        .tick (Ex.at_ 1002)] = some w ∧ (sends w.trace).length = 1 ∧
      (w.execPolled (Ex.at_ 1002) 0 (Ex.at_ 1002) (Ex.at_ 1002)).bind
        (fun v => v.step (.exec 0 (Ex.at_ 1002) (Ex.at_ 1002))) = some w' ∧
      (sends w'.trace).length = 3 ∧ w'.tr.interval .TIMEOUT_A = 2000 := by
  have h := any_exists (o := (Ex.go .ICT Ex.invite [.outgoing Ex.invite, .exec 0 (Ex.at_ 1000) (Ex.at_ 1000),
        .tick (Ex.at_ 1002)])) (P := fun w => (sends w.trace).length = 1 ∧
      ((w.execPolled (Ex.at_ 1002) 0 (Ex.at_ 1002) (Ex.at_ 1002)).bind
        (fun v => v.step (.exec 0 (Ex.at_ 1002) (Ex.at_ 1002)))).any (fun w' =>
      decide ((sends w'.trace).length = 3 ∧ w'.tr.interval .TIMEOUT_A = 2000)) = true) (by decide +kernel)
  obtain ⟨w, h1, h2, h3⟩ := h
  obtain ⟨w', h4, h5, h6⟩ := any_exists h3
  exact ⟨w, w', h1, h2, h4, h5, h6⟩

end Osip
