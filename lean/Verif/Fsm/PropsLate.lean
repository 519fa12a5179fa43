import Verif.Fsm.PropsWait
import Verif.Fsm.PropsSpacing

/-!
# C121: the waiting states last as long as RFC 3261 wants
-/

set_option autoImplicit false

namespace Osip

/-- The states in which a transaction may be when the event of a timer of `waitOf` waits in its
queue: the state of the timer, and those that can follow. -/
def sinceStates : EvType → List State
  | .TIMEOUT_D => [.ICT_COMPLETED, .ICT_TERMINATED]
  | .TIMEOUT_K => [.NICT_COMPLETED, .NICT_TERMINATED]
  | .TIMEOUT_H => [.IST_COMPLETED, .IST_CONFIRMED, .IST_TERMINATED]
  | .TIMEOUT_I => [.IST_CONFIRMED, .IST_TERMINATED]
  | .TIMEOUT_J => [.NIST_COMPLETED, .NIST_TERMINATED]
  | _ => []

/-- The timers of `waitOf`. -/
def waitTimers : List EvType :=
  [.TIMEOUT_D, .TIMEOUT_K, .TIMEOUT_H, .TIMEOUT_I, .TIMEOUT_J]

/-- No event of a timer waits before the state of the timer. -/
def NotEarly (w : World) : Prop :=
  ∀ ev ∈ w.queue, ev.type ∈ waitTimers → w.tr.state ∈ sinceStates ev.type

theorem since_exec {x : EvType} (hx : x ∈ waitTimers) {env t ev t' e r}
    (he : osip_transaction_execute env t ev = some (t', e, r)) (h : t.state ∈ sinceStates x) :
    t'.state ∈ sinceStates x := by
  cases hk : t.ctx_type
  all_goals
    fsm_exec he hk hs ht
    all_goals first
      | exact h
      | (rw [hs] at h
         revert h
         simp only [waitTimers, List.mem_cons, List.not_mem_nil, or_false] at hx
         rcases hx with rfl | rfl | rfl | rfl | rfl <;> first
           | decide
           | (intro _; decide)
           | (simp [sinceStates]; done)
           | (simp [sinceStates, hs]; done)
           | (exfalso; simp only [hs, reduceCtorEq] at *; done))

theorem notEarly_step {w w' : World} {o : Op} (h : NotEarly w) (ho : TimersInOrder o)
    (hs : w.step o = some w') : NotEarly w' := by
  rcases step_queue hs with ⟨ev, h1, h2, h3⟩ | ⟨h1, h2, _⟩ | ⟨ev, h1⟩
  · intro ev' hm hx
    rw [h1] at hm
    rw [h2]
    rcases List.mem_append.1 hm with hm | hm
    · exact h ev' hm hx
    · rw [List.mem_singleton] at hm
      subst hm
      rcases h3 with h3 | h3 | ⟨now, _, h3⟩ | h3
      · exfalso; revert h3 hx; cases ev'.type <;> decide
      · exfalso; rw [h3] at hx; revert hx; decide
      · have := needTimer_state h3
        revert this
        simp only [waitTimers, List.mem_cons, List.not_mem_nil, or_false] at hx
        rcases hx with hx | hx | hx | hx | hx <;> rw [hx] <;>
          simp +contextual [rfcTimerStates, sinceStates]
      · exact absurd h3 (ho _)
  · intro ev' hm hx
    rw [h1] at hm
    rw [h2]
    exact h ev' hm hx
  · rcases step_cases hs with ⟨q, rfl, _⟩ | ⟨_, _, _, _, _, rfl⟩ |
      ⟨s, n1, n2, ev', q, t, e, r, _, hq, he, rfl⟩
    · have := congrArg List.length h1; simp at this; omega
    · have := congrArg List.length h1; simp at this; omega
    · intro y hy hx
      exact since_exec hx he (h y (by rw [hq]; exact List.mem_cons_of_mem _ hy) hx)

theorem reach_notEarly {R : Msg → Prop} {k : Kind} {w : World}
    (h : ReachFrom R TimersInOrder k w) : NotEarly w :=
  reachFrom_inv (I := NotEarly) (fun _ _ _ _ _ _ ev hev => by cases hev)
    (fun _ _ _ _ h2 h3 h4 => notEarly_step h2 h3 h4) h

/-! ## Staying in a waiting state -/

/-- In the waiting state `st`, with a deadline not before `B`. -/
structure Staying (reliable : Bool) (st : State) (x : EvType) (B : Int) (t : Tr) : Prop where
  state : t.state = st
  late : B ≤ (t.deadline x).micros
  normal : (t.deadline x).Normal
  lengths : Lengths reliable t.ctx_type t

theorem staying_exec {b : Bool} {st : State} {x : EvType} {ms T : Int} {env t ev t' e r}
    (hw : waitOf b st = some (x, ms)) (h : Staying b st x (T + ms * 1000) t) (hx : ev.type ≠ x)
    (hok : e.any Eff.isTpErr = false) (hn : env.now1.Normal) (hT : T ≤ env.now1.micros)
    (he : osip_transaction_execute env t ev = some (t', e, r)) :
    Staying b st x (T + ms * 1000) t' ∨
      st = .IST_COMPLETED ∧ t'.state = .IST_CONFIRMED ∧ ev.type = .RCV_REQACK := by
  have hl := lengths_exec h.lengths he
  rw [← exec_ctx_type he] at hl
  obtain ⟨rfl, h2, h3, h4⟩ := h
  have add := fun (n : Int) (h0 : 0 ≤ n) (h1 : n < 1000000) => c27_add_exact_partial hn h0 h1
  unfold Lengths at h4
  cases hk : t.ctx_type
  all_goals
    simp only [hk, terminatedOf] at h4
    fsm_exec he hk hs ht
    all_goals first
      | (exact .inl ⟨rfl, h2, h3, hl⟩)
      | (simp only [hs, waitOf, reduceCtorEq] at hw; done)
      | skip
  all_goals
    simp only [hs, waitOf, Option.some.injEq, Prod.mk.injEq] at hw
    obtain ⟨rfl, rfl⟩ := hw
    first
      | exact absurd ht hx
      | exact .inr ⟨hs, rfl, ht⟩
      | exact .inl ⟨rfl, h2, h3, hl⟩
      | exact .inl ⟨hs.symm, h2, h3, hl⟩
      | (exfalso; simp only [hs, reduceCtorEq] at *; done)
      | (exfalso; simp [Eff.isTpErr] at hok; done)
      | skip
  have h4 := (h4 (by rw [hs]; decide)).2
  refine .inl ⟨hs.symm, ?_, ?_, hl⟩
  · simp only [Tr.deadline, h4]
    cases b
    · have := (add 5000 (by decide) (by decide)).1
      simp only [Bool.false_eq_true, if_false]
      omega
    · have := (add 0 (by decide) (by decide)).1
      simp only [if_true]
      omega
  · simp only [Tr.deadline, h4]
    cases b
    · exact (add 5000 (by decide) (by decide)).2
    · exact (add 0 (by decide) (by decide)).2

/-- The effects of a run are only added to. -/
theorem run_trace_prefix : ∀ {ops : List Op} {w w' : World}, w.run ops = some w' →
    ∃ e, w'.trace = w.trace ++ e := by
  intro ops
  induction ops with
  | nil => intro w w' h; simp only [World.run, Option.some.injEq] at h; exact ⟨[], by simp [h]⟩
  | cons o os ih =>
    intro w w' h
    simp only [World.run, Option.bind_eq_bind, Option.bind_eq_some_iff] at h
    obtain ⟨w1, h1, h2⟩ := h
    obtain ⟨e, he⟩ := ih h2
    rcases step_cases h1 with ⟨q, rfl, _⟩ | ⟨_, _, _, _, _, rfl⟩ | ⟨_, _, _, _, _, _, e1, _, _, _, _, rfl⟩
    · exact ⟨e, he⟩
    · exact ⟨_, by rw [he]; exact List.append_assoc ..⟩
    · exact ⟨e1 ++ e, by rw [he]; exact List.append_assoc ..⟩

theorem run_log_prefix : ∀ {ops : List Op} {w w' : World}, w.run ops = some w' →
    ∃ l, w'.log = w.log ++ l := by
  intro ops
  induction ops with
  | nil => intro w w' h; simp only [World.run, Option.some.injEq] at h; exact ⟨[], by simp [h]⟩
  | cons o os ih =>
    intro w w' h
    simp only [World.run, Option.bind_eq_bind, Option.bind_eq_some_iff] at h
    obtain ⟨w1, h1, h2⟩ := h
    obtain ⟨e, he⟩ := ih h2
    rcases step_cases h1 with ⟨q, rfl, _⟩ | ⟨_, _, _, _, _, rfl⟩ | ⟨_, _, _, _, _, _, e1, _, _, _, _, rfl⟩
    · exact ⟨e, he⟩
    · exact ⟨e, he⟩
    · exact ⟨_, by rw [he]; exact List.append_assoc ..⟩

/-- No transport error was reported. -/
def NoTransportError (w : World) : Prop := ∀ x ∈ w.trace, x.isTpErr = false

theorem NoTransportError.before {ops : List Op} {w w' : World} (h : NoTransportError w')
    (hr : w.run ops = some w') : NoTransportError w := by
  obtain ⟨e, he⟩ := run_trace_prefix hr
  intro x hx
  exact h x (by rw [he]; exact List.mem_append_left _ hx)

/-- The clock is not set back behind `T`, and the timer loop is not run after `B`. -/
def InTime (T B : Int) (o : Op) : Prop :=
  (∀ t ∈ o.readings, t.Normal ∧ T ≤ t.micros) ∧ ∀ t, o = .tick t → t.micros ≤ B

theorem waitOf_timer {b : Bool} {st : State} {x : EvType} {ms : Int}
    (h : waitOf b st = some (x, ms)) : x ∈ waitTimers := by
  cases st <;> simp only [waitOf, reduceCtorEq, Option.some.injEq, Prod.mk.injEq] at h <;>
    rw [← h.1] <;> decide

theorem staying_run {b : Bool} {st : State} {x : EvType} {ms T : Int}
    (hw : waitOf b st = some (x, ms)) : ∀ {ops : List Op} {w w' : World},
    Staying b st x (T + ms * 1000) w.tr → (∀ ev ∈ w.queue, ev.type ≠ x) →
    (∀ o ∈ ops, TimersInOrder o ∧ InTime T (T + ms * 1000) o) →
    w.run ops = some w' → NoTransportError w' →
    w'.tr.state = st ∨ st = .IST_COMPLETED ∧ ∃ a s n1 n2 c w3 w4, ops = a ++ .exec s n1 n2 :: c ∧
      w.run a = some w3 ∧ w3.step (.exec s n1 n2) = some w4 ∧ w3.tr.state = .IST_COMPLETED ∧
      w4.tr.state = .IST_CONFIRMED := by
  intro ops
  induction ops with
  | nil =>
    intro w w' h _ _ hr _
    simp only [World.run, Option.some.injEq] at hr
    exact .inl (hr ▸ h.state)
  | cons o os ih =>
    intro w w' h hq ho hr hnt
    simp only [World.run, Option.bind_eq_bind, Option.bind_eq_some_iff] at hr
    obtain ⟨w1, h1, h2⟩ := hr
    have hx := waitOf_timer hw
    have hmore : Staying b st x (T + ms * 1000) w1.tr → (∀ ev ∈ w1.queue, ev.type ≠ x) → 
        w'.tr.state = st ∨ st = .IST_COMPLETED ∧ ∃ a s n1 n2 c w3 w4,
          o :: os = a ++ .exec s n1 n2 :: c ∧
          w.run a = some w3 ∧ w3.step (.exec s n1 n2) = some w4 ∧ w3.tr.state = .IST_COMPLETED ∧
          w4.tr.state = .IST_CONFIRMED := by
      intro hst hq1
      rcases ih hst hq1 (fun o' ho' => ho o' (List.mem_cons_of_mem _ ho')) h2 hnt with h3 |
        ⟨h3, a, s, n1, n2, c, w3, w4, h4, h5, h6⟩
      · exact .inl h3
      · refine .inr ⟨h3, o :: a, s, n1, n2, c, w3, w4, by rw [h4]; rfl, ?_, h6⟩
        simp only [World.run, Option.bind_eq_bind, h1, Option.bind_some, h5]
    obtain ⟨hto, hin, htick⟩ := ho o (List.mem_cons_self ..)
    rcases step_queue h1 with ⟨ev, q1, q2, q3⟩ | ⟨q1, q2, _⟩ | ⟨ev, q1⟩
    · refine hmore (q2 ▸ h) ?_
      intro ev' hm
      rw [q1] at hm
      rcases List.mem_append.1 hm with hm | hm
      · exact hq ev' hm
      rw [List.mem_singleton] at hm
      subst hm
      intro he
      rcases q3 with h3 | h3 | ⟨now, hn, h3⟩ | h3
      · rw [he] at h3; revert h3 hx; cases x <;> decide
      · rw [he] at h3; rw [h3] at hx; revert hx; decide
      · rw [he] at h3
        have hnn := (hin now (by rw [hn]; simp [Op.readings])).1
        have hd := ((needTimer_iff hnn h.normal).1 h3).2.2
        have := htick now hn
        have := h.late
        omega
      · exact absurd h3 (hto _)
    · exact hmore (q2 ▸ h) (q1 ▸ hq)
    · have hw1 := h1
      rcases step_cases h1 with ⟨q, rfl, _⟩ | ⟨_, _, _, _, _, rfl⟩ |
        ⟨s, n1, n2, ev', q, t, e, r, rfl, hqq, he, rfl⟩
      · have := congrArg List.length q1; simp at this; omega
      · have := congrArg List.length q1; simp at this; omega
      · have hn1 := hin n1 (by simp [Op.readings])
        have hnt1 := hnt.before h2
        rcases staying_exec hw h (hq ev' (by rw [hqq]; exact List.mem_cons_self ..)) 
          (by
            rw [List.any_eq_false]
            intro y hy
            have := hnt1 y (List.mem_append_right _ hy)
            simp [this]) hn1.1 hn1.2 he with h3 | ⟨h3, h4, _⟩
        · exact hmore h3 (fun y hy => hq y (by rw [hqq]; exact List.mem_cons_of_mem _ hy))
        · exact .inr ⟨h3, [], s, n1, n2, os, w, _, rfl, rfl, hw1, h3 ▸ h.state, h4⟩

theorem enter_exec {b : Bool} {env t ev t' e r} (hp : Lengths b t.ctx_type t)
    (hn1 : env.now1.Normal) (hn2 : env.now2.Normal) (hle : env.now1.micros ≤ env.now2.micros)
    (he : osip_transaction_execute env t ev = some (t', e, r)) (hne : t'.state ≠ t.state)
    {x : EvType} {ms : Int} (hw : waitOf b t'.state = some (x, ms)) :
    Staying b t'.state x (env.now1.micros + ms * 1000) t' ∧ t.state ∉ sinceStates x := by
  have hl := lengths_exec hp he
  rw [← exec_ctx_type he] at hl
  have add := fun (n : Int) (h0 : 0 ≤ n) (h1 : n < 1000000) => c27_add_exact_partial hn1 h0 h1
  have add2 := fun (n : Int) (h0 : 0 ≤ n) (h1 : n < 1000000) => c27_add_exact_partial hn2 h0 h1
  unfold Lengths at hp
  cases hk : t.ctx_type
  all_goals
    simp only [hk, terminatedOf] at hp
    fsm_exec he hk hs ht
    all_goals first
      | (exact absurd rfl hne)
      | (exact absurd hs.symm hne)
      | (simp [waitOf, hs] at hw; done)
      | skip
  all_goals
    simp only [waitOf, hs, Option.some.injEq, Prod.mk.injEq, reduceCtorEq] at hw
    obtain ⟨rfl, rfl⟩ := hw
    have hp := hp (by rw [hs]; decide)
    refine ⟨⟨rfl, ?_, ?_, hl⟩, by rw [hs]; decide⟩
  all_goals
    simp only [Tr.deadline]
    cases b <;> simp only [hp, hs, if_true, if_false, Bool.false_eq_true, reduceCtorEq, ne_eq,
        not_false_eq_true] <;> first
      | exact (add 0 (by decide) (by decide)).2
      | exact (add 5000 (by decide) (by decide)).2
      | exact (add 32000 (by decide) (by decide)).2
      | exact (add2 32000 (by decide) (by decide)).2
      | (have := (add 0 (by decide) (by decide)).1; omega)
      | (have := (add 5000 (by decide) (by decide)).1; omega)
      | (have := (add 32000 (by decide) (by decide)).1; omega)
      | (have := (add2 32000 (by decide) (by decide)).1; omega)

/-- **C121 (waiting states).** A transaction enters a waiting state at `n1`. Whatever happens then -
messages arrive or are submitted, events are executed in any number - as long as the timer loop is
not run later than the RFC 3261 waiting period after `n1`, no transport error is reported and timer
events come from the timer loop only, the transaction is still in that state; only an INVITE server
transaction may have gone on from COMPLETED to CONFIRMED when it executed an ACK. The clock is not
set back behind `n1`. -/
theorem c121_stays {reliable : Bool} {k : Kind} {w w1 w2 : World}
    (h : ReachFrom (Over reliable) TimersInOrder k w) {send : Int} {n1 n2 : TimeVal}
    (hn1 : n1.Normal) (hn2 : n2.Normal) (hle : n1.micros ≤ n2.micros)
    (hx : w.step (.exec send n1 n2) = some w1) (hne : w1.tr.state ≠ w.tr.state)
    {x : EvType} {ms : Int} (hw : waitOf reliable w1.tr.state = some (x, ms)) {ops : List Op}
    (ho : ∀ o ∈ ops, TimersInOrder o ∧ InTime n1.micros (n1.micros + ms * 1000) o)
    (hr : w1.run ops = some w2) (hnt : NoTransportError w2) :
    w2.tr.state = w1.tr.state ∨ w1.tr.state = .IST_COMPLETED ∧
      ∃ a s m1 m2 c w3 w4, ops = a ++ .exec s m1 m2 :: c ∧ w1.run a = some w3 ∧
        w3.step (.exec s m1 m2) = some w4 ∧ w3.tr.state = .IST_COMPLETED ∧
        w4.tr.state = .IST_CONFIRMED := by
  have hl := reach_lengths (b := reliable) (w := w) (k := k) (by
    obtain ⟨a, b, c, d, e, f1, f2, f3, _⟩ := h
    exact ⟨a, b, c, d, e, f1, f2, f3, fun _ _ => trivial⟩)
  have hq := reach_notEarly h
  rcases step_cases hx with ⟨q, rfl, _⟩ | ⟨_, _, _, _, h3, _⟩ |
    ⟨s, m1, m2, ev, q, t, e, r, hs, hqq, he, hww⟩
  · exact absurd rfl hne
  · rcases h3 with h3 | h3 <;> cases h3
  · cases hs
    obtain ⟨rfl, hl⟩ := hl
    have htr : w1.tr = t := by rw [hww]
    obtain ⟨q1, q2⟩ := enter_exec (env := ⟨send, n1, n2, w.next⟩) hl hn1 hn2 hle he (htr ▸ hne)
      (htr ▸ hw)
    refine staying_run hw (htr ▸ q1) ?_ ho hr hnt
    intro y hy hyx
    have hy' : y ∈ w.queue := by
      rw [hqq]
      rw [hww] at hy
      exact List.mem_cons_of_mem _ hy
    exact q2 (hyx ▸ hq y hy' (hyx ▸ waitOf_timer hw))

/-! ## Server transactions from their creation -/

/-- A run that leaves a set of worlds leaves it at some operation. -/
theorem first_leave {P : World → Prop} : ∀ {ops : List Op} {w w' : World}, P w → ¬ P w' →
    w.run ops = some w' → ∃ a o b wa wb, ops = a ++ o :: b ∧ w.run a = some wa ∧ P wa ∧
      wa.step o = some wb ∧ ¬ P wb ∧ wb.run b = some w' := by
  intro ops
  induction ops with
  | nil =>
    intro w w' h h' hr
    simp only [World.run, Option.some.injEq] at hr
    exact absurd (hr ▸ h) h'
  | cons o os ih =>
    intro w w' h h' hr
    simp only [World.run, Option.bind_eq_bind, Option.bind_eq_some_iff] at hr
    obtain ⟨w1, h1, h2⟩ := hr
    by_cases hp : P w1
    · obtain ⟨a, o', b, wa, wb, q1, q2, q3⟩ := ih hp h' h2
      refine ⟨o :: a, o', b, wa, wb, by rw [q1]; rfl, ?_, q3⟩
      simp only [World.run, Option.bind_eq_bind, h1, Option.bind_some, q2]
    · exact ⟨[], o, os, w, w1, rfl, rfl, h, h1, hp, h2⟩

/-- The states of a server transaction before its final response. -/
def unanswered : Kind → List State
  | .IST => [.IST_PRE_PROCEEDING, .IST_PROCEEDING]
  | .NIST => [.NIST_PRE_TRYING, .NIST_TRYING, .NIST_PROCEEDING]
  | _ => []

/-- The state a server transaction enters with its final response. -/
def answeredState : Kind → State
  | .IST => .IST_COMPLETED
  | _ => .NIST_COMPLETED

theorem answer_exec {k : Kind} (hk : k = .IST ∨ k = .NIST) {env t ev t' e r}
    (hc : t.ctx_type = k) (h : t.state ∈ unanswered k) (hok : e.any Eff.isTpErr = false)
    (h2 : k = .IST → ev.type ≠ .SND_STATUS_2XX)
    (he : osip_transaction_execute env t ev = some (t', e, r)) (hn : t'.state ∉ unanswered k) :
    t'.state = answeredState k := by
  rcases hk with rfl | rfl
  all_goals
    fsm_exec he hc hs ht
    all_goals first
      | rfl
      | exact absurd h hn
      | (exfalso; simp [unanswered] at hn; done)
      | (exfalso; simp [unanswered, hs] at h; done)
      | exact absurd ht (h2 rfl)
      | (exfalso; simp [Eff.isTpErr] at hok; done)
      | (rw [← hs] at hn; exact absurd h hn)

/-- The states of one run of operations from `w`, after a change at `m1` to a state with a waiting
period, are polled only within that period. -/
def PolledInTime (w : World) (ops : List Op) : Prop :=
  ∀ a s m1 m2 b t c wa wb, ops = a ++ .exec s m1 m2 :: (b ++ .tick t :: c) → w.run a = some wa →
    wa.step (.exec s m1 m2) = some wb → wb.tr.state ≠ wa.tr.state → ∀ x ms,
    waitOf false wb.tr.state = some (x, ms) → t.micros ≤ m1.micros + ms * 1000

theorem clockRuns_split {a b : List Op} {s : Int} {m1 m2 : TimeVal}
    (h : ClockRuns ((a ++ .exec s m1 m2 :: b).flatMap Op.readings)) :
    m1.Normal ∧ m2.Normal ∧ m1.micros ≤ m2.micros ∧
      ∀ o ∈ b, ∀ t ∈ o.readings, t.Normal ∧ m1.micros ≤ t.micros := by
  obtain ⟨h1, h2⟩ := h
  simp only [List.flatMap_append, List.flatMap_cons, Op.readings, List.pairwise_append,
    List.cons_append, List.nil_append, List.pairwise_cons, List.mem_cons, List.mem_append] at h1 h2
  refine ⟨(h1 m1 (by simp)).1, (h1 m2 (by simp)).1, h2.2.1.1 m2 (by simp), ?_⟩
  intro o ho t ht
  have hm : t ∈ b.flatMap Op.readings := List.mem_flatMap.2 ⟨o, ho, ht⟩
  exact ⟨(h1 t (by simp [hm])).1, h2.2.1.1 t (by simp [hm])⟩

/-- **C121 (server transactions).** A server transaction created for a request that came over an
unreliable transport has not ended as long as the timer loop is not run later than the RFC 3261
waiting period after a waiting state was entered, no transport error is reported, and, for an
INVITE, no 2xx response is executed. -/
theorem c121_alive {k : Kind} (hk : k = .IST ∨ k = .NIST) {c1 c2 : TimeVal} {req : Msg} {t : Tr}
    {ops : List Op} {w : World} (hu : Unreliable req)
    (hi : transactionInit k c1 c2 req = some (.ok t)) (hr : (World.init t).run ops = some w)
    (ho : ∀ o ∈ ops, TimersInOrder o) (hc : ClockRuns (ops.flatMap Op.readings))
    (hnt : NoTransportError w) (hp : PolledInTime (World.init t) ops)
    (h2 : k = .IST → ∀ d ∈ w.log, d.ev.type ≠ .SND_STATUS_2XX) :
    w.tr.state ≠ terminatedOf k := by
  intro hterm
  obtain ⟨g1, g2, _⟩ := init_shape hi
  have hun : (World.init t).tr.state ∈ unanswered k := by
    have := (init_shape hi).2.2.2.2
    show t.state ∈ _
    rcases hk with rfl | rfl <;> rw [this] <;> simp [unanswered]
  have hnot : w.tr.state ∉ unanswered k := by
    rw [hterm]; rcases hk with rfl | rfl <;> decide
  obtain ⟨a, o, b, wa, wb, rfl, q1, q2, q3, q4, q5⟩ :=
    first_leave (P := fun w => w.tr.state ∈ unanswered k) hun hnot hr
  have hra : ReachFrom (Over false) TimersInOrder k wa :=
    ⟨c1, c2, req, t, a, by simpa [Over] using hu, hi, q1, fun o h => ho o (by simp [h])⟩
  have hka := (reach_queue hra.reach).1
  rcases step_cases q3 with ⟨q, rfl, _⟩ | ⟨_, _, _, _, _, rfl⟩ |
    ⟨s, n1, n2, ev, q, t', e, r, rfl, hqq, he, hwb⟩
  · exact q4 q2
  · exact q4 q2
  have htr : wb.tr = t' := by rw [hwb]
  have hntb := hnt.before q5
  have hans : wb.tr.state = answeredState k := by
    rw [htr]
    refine answer_exec hk hka q2 ?_ ?_ he (htr ▸ q4)
    · rw [List.any_eq_false]
      intro y hy
      have := hntb y (by rw [hwb]; exact List.mem_append_right _ hy)
      simp [this]
    · intro hki
      obtain ⟨l, hl⟩ := run_log_prefix q5
      refine h2 hki ⟨wa.tr.state, ev, s⟩ ?_
      rw [hl, hwb]
      simp
  have hne : wb.tr.state ≠ wa.tr.state := fun h => q4 (h ▸ q2)
  obtain ⟨k1, k2, k3, k4⟩ := clockRuns_split hc
  have hin : ∀ {x ms}, waitOf false wb.tr.state = some (x, ms) →
      ∀ o ∈ b, TimersInOrder o ∧ InTime n1.micros (n1.micros + ms * 1000) o := by
    intro x ms hw o hob
    refine ⟨ho o (by simp [hob]), k4 o hob, ?_⟩
    rintro tt rfl
    obtain ⟨b1, b2, rfl⟩ := List.append_of_mem hob
    exact hp a s n1 n2 b1 tt b2 wa wb rfl q1 q3 hne x ms hw
  rcases hk with rfl | rfl
  · have hw : waitOf false wb.tr.state = some (.TIMEOUT_H, 32000) := by rw [hans]; rfl
    rcases c121_stays hra k1 k2 k3 q3 hne hw (hin hw) q5 hnt with h3 |
      ⟨_, a', s', m1, m2, c, w3, w4, rfl, p1, p2, p3, p4⟩
    · rw [hterm, hans] at h3; cases h3
    · have hrun3 : (World.init t).run (a ++ .exec s n1 n2 :: a') = some w3 := by
        rw [World.run_append, q1]
        simp only [Option.bind_some, World.run, Option.bind_eq_bind, q3, p1]
      have hra3 : ReachFrom (Over false) TimersInOrder .IST w3 := by
        refine ⟨c1, c2, req, t, a ++ .exec s n1 n2 :: a', by simpa [Over] using hu, hi, hrun3, ?_⟩
        intro o h
        refine ho o ?_
        rcases List.mem_append.1 h with h | h
        · simp [h]
        · rcases List.mem_cons.1 h with h | h <;> simp [h]
      have hne' : w4.tr.state ≠ w3.tr.state := by rw [p3, p4]; decide
      have hr4 : w4.run c = some w := by
        rw [World.run_append, p1] at q5
        simpa only [Option.bind_some, World.run, Option.bind_eq_bind, p2] using q5
      have heq : a ++ .exec s n1 n2 :: (a' ++ .exec s' m1 m2 :: c) =
          (a ++ .exec s n1 n2 :: a') ++ .exec s' m1 m2 :: c := by simp
      rw [heq] at hc
      obtain ⟨k1', k2', k3', k4'⟩ := clockRuns_split hc
      have hw : waitOf false w4.tr.state = some (.TIMEOUT_I, 5000) := by rw [p4]; rfl
      rcases c121_stays hra3 k1' k2' k3' p2 hne' hw (by
        intro o hob
        refine ⟨ho o (by simp [hob]), k4' o hob, ?_⟩
        rintro tt rfl
        obtain ⟨b1, b2, rfl⟩ := List.append_of_mem hob
        exact hp (a ++ .exec s n1 n2 :: a') s' m1 m2 b1 tt b2 w3 w4 heq hrun3 p2 hne' _ _ hw) hr4
        hnt with h3 | ⟨h3, _⟩
      · rw [hterm, p4] at h3; cases h3
      · rw [p4] at h3; cases h3
  · have hw : waitOf false wb.tr.state = some (.TIMEOUT_J, 32000) := by rw [hans]; rfl
    rcases c121_stays hra k1 k2 k3 q3 hne hw (hin hw) q5 hnt with h3 | ⟨h3, _⟩
    · rw [hterm, hans] at h3; cases h3
    · rw [hans] at h3; cases h3

/-- An OPTIONS request over UDP is answered at 1001.25 s: with the timers run at 1033.25 s it still
waits in COMPLETED, run a microsecond later they end it. -/
example : (Ex.go .NIST Ex.options [.incoming Ex.options, Ex.x,
      .outgoing (Ex.response 200 "UDP" "OPTIONS"), .exec 0 ⟨1001, 250000⟩ ⟨1001, 250000⟩,
      .tick ⟨1033, 250000⟩, .exec 0 ⟨1033, 250000⟩ ⟨1033, 250000⟩]).map (·.tr.state) =
    some .NIST_COMPLETED ∧
    (Ex.go .NIST Ex.options [.incoming Ex.options, Ex.x,
      .outgoing (Ex.response 200 "UDP" "OPTIONS"), .exec 0 ⟨1001, 250000⟩ ⟨1001, 250000⟩,
      .tick ⟨1033, 250001⟩, .exec 0 ⟨1033, 250001⟩ ⟨1033, 250001⟩]).map (·.tr.state) =
    some .NIST_TERMINATED := by decide +kernel

/-- The hypotheses of `c121_stays` can be met: the world before the final response. -/
example : ∃ w, ReachFrom (Over false) TimersInOrder .NIST w ∧
    (w.step (.exec 0 ⟨1001, 250000⟩ ⟨1001, 250000⟩)).map (·.tr.state) = some .NIST_COMPLETED ∧
    w.tr.state = .NIST_TRYING := by
  have h : (Ex.go .NIST Ex.options [.incoming Ex.options, Ex.x,
      .outgoing (Ex.response 200 "UDP" "OPTIONS")]).any (fun w =>
      decide ((w.step (.exec 0 ⟨1001, 250000⟩ ⟨1001, 250000⟩)).map (·.tr.state) =
        some .NIST_COMPLETED) && decide (w.tr.state = .NIST_TRYING)) = true := by decide +kernel
  rw [Option.any_eq_true] at h
  obtain ⟨w, h1, h2⟩ := h
  rw [Bool.and_eq_true, decide_eq_true_eq, decide_eq_true_eq] at h2
  refine ⟨w, ?_, h2⟩
  simp only [Ex.go, Option.bind_eq_some_iff] at h1
  obtain ⟨w0, h0, h1⟩ := h1
  unfold Ex.start at h0
  split at h0
  · next t ht =>
    simp only [Option.some.injEq] at h0
    subst h0
    exact ⟨_, _, Ex.options, t, _, ⟨_, rfl, by rw [← isReliable_iff]; decide +kernel⟩, ht, h1,
      by simp [TimersInOrder, Ex.x]⟩
  · cases h0

end Osip
