import Verif.Exec.Locks

/-!
# C106: the functions of the library do not deadlock
-/

set_option autoImplicit false

namespace Osip.Locks

/-- Mutexes are taken in this order. -/
def Lock.rank : Lock → Nat
  | .ixt => 0
  | .fifo _ => 2
  | _ => 1

/-- The program, started with the first mutexes, comes to its end with the second ones; it takes them in order, gives back what it took
last and calls back without any, except for `send`, which may have `ixt_fastmutex`. -/
inductive Runs : List Lock → Prog → List Lock → Prop
  | skip (h : List Lock) : Runs h .skip h
  | lock {h : List Lock} {m : Lock} : (∀ x ∈ h, x.rank < m.rank) → Runs h (.lock m) (m :: h)
  | unlock (h : List Lock) (m : Lock) : Runs (m :: h) (.unlock m) h
  | seq {h₁ h₂ h₃ : List Lock} {p q : Prog} : Runs h₁ p h₂ → Runs h₂ q h₃ → Runs h₁ (.seq p q) h₃
  | branch {h₁ h₂ : List Lock} {f : Nat → Prog} : (∀ c, Runs h₁ (f c) h₂) → Runs h₁ (.branch f) h₂
  | loop {h : List Lock} {p : Prog} : Runs h p h → Runs h (.loop p) h
  | callback : Runs [] .callback []
  | send {h : List Lock} : (∀ x ∈ h, x.rank = 0) → Runs h .send h

theorem runs_append {h₁ h₂ h₃ : List Lock} {p q : Prog} (hp : Runs h₁ p h₂) (hq : Runs h₂ q h₃) : Runs h₁ (p ++ q) h₃ := .seq hp hq

theorem runs_either {h₁ h₂ : List Lock} {p q : Prog} (hp : Runs h₁ p h₂) (hq : Runs h₁ q h₂) : Runs h₁ (.either p q) h₂ := by
  refine .branch fun c => ?_
  split
  · exact hp
  · exact hq

theorem low_lt {h : List Lock} (hr : ∀ x ∈ h, x.rank = 0) {m : Lock} (hm : m.rank ≠ 0) : ∀ x ∈ h, x.rank < m.rank := fun x hx => by
  have := hr x hx
  omega

theorem runs_fifo_add {h : List Lock} (hr : ∀ x ∈ h, x.rank ≤ 1) (t : Nat) : Runs h (fifo_add t) h :=
  runs_append (.lock fun x hx => Nat.lt_of_le_of_lt (hr x hx) (by simp [Lock.rank])) (.unlock ..)

theorem runs_tryget {h : List Lock} (hr : ∀ x ∈ h, x.rank ≤ 1) (t : Nat) : Runs h (fifo_tryget t) h :=
  runs_either (.skip h) (runs_append (.lock fun x hx => Nat.lt_of_le_of_lt (hr x hx) (by simp [Lock.rank])) (runs_either (.unlock ..) (.unlock ..)))

theorem low_le {h : List Lock} (hr : ∀ x ∈ h, x.rank = 0) : ∀ x ∈ h, x.rank ≤ 1 := fun x hx => by
  have := hr x hx
  omega

theorem low_cons {h : List Lock} (hr : ∀ x ∈ h, x.rank = 0) {m : Lock} (hm : m.rank ≤ 1) : ∀ x ∈ m :: h, x.rank ≤ 1 := fun x hx => by
  rcases List.mem_cons.1 hx with rfl | hx
  · exact hm
  · exact low_le hr x hx

theorem runs_lock0 (m : Lock) : Runs [] (.lock m) [m] := .lock (by simp)

section
variable {h : List Lock} (hr : ∀ x ∈ h, x.rank = 0)
include hr

theorem runs_remove {m : Lock} (hm : m.rank = 1) : Runs h (remove_transaction m) h :=
  runs_append (runs_append (.lock (low_lt hr (by omega))) (.loop (.skip _))) (runs_either (.unlock ..) (.unlock ..))

theorem runs_osip_remove : Runs h osip_remove_transaction h := by
  refine .branch fun c => ?_
  split <;> first | exact runs_remove hr rfl | exact .skip _

theorem runs_free2 : Runs h osip_transaction_free2 h :=
  .branch fun t => runs_append (runs_tryget (low_le hr) t) (.loop (runs_tryget (low_le hr) t))

theorem runs_free : Runs h osip_transaction_free h := runs_append (runs_osip_remove hr) (runs_free2 hr)

theorem runs_add {m : Lock} (hm : m.rank = 1) : Runs h (add_transaction m) h := runs_append (.lock (low_lt hr (by omega))) (.unlock ..)

theorem runs_init : Runs h osip_transaction_init h := by
  refine runs_either (.skip _) (runs_append (runs_append (.lock (low_lt hr (by decide))) (.unlock ..)) (.branch fun c => ?_))
  split <;> first | exact runs_add hr rfl | exact runs_free hr

theorem runs_find {m : Lock} (hm : m.rank = 1) : Runs h (find_transaction m) h :=
  runs_append (runs_append (.lock (low_lt hr (by omega))) (.loop (.skip _)))
    (runs_either (runs_append (.branch fun t => runs_fifo_add (low_cons hr (by omega)) t) (.unlock ..)) (.unlock ..))

theorem runs_find_all : Runs h osip_find_transaction_and_add_event h := by
  refine .branch fun c => ?_
  split <;> first | exact runs_find hr rfl | exact .skip _

theorem runs_timers {m : Lock} (hm : m.rank = 1) : Runs h (timers_execute m) h :=
  have hc := low_cons hr (m := m) (by omega)
  runs_append (runs_append (.lock (low_lt hr (by omega))) (.loop (.branch fun t =>
    runs_append (runs_either (.skip _) (runs_fifo_add hc t)) (runs_either (.skip _) (runs_fifo_add hc t))))) (.unlock ..)

end

theorem runs_execute (m : Lock) : Runs [] (execute m) [] := by
  refine runs_append (runs_lock0 m) (runs_either (.unlock ..) (runs_append (runs_append (.loop (.skip _)) (.unlock ..)) (.loop (.branch fun t => ?_))))
  exact runs_append (.loop (runs_append (runs_tryget (by simp) t) (.loop .callback))) (runs_tryget (by simp) t)

theorem runs_gettimeout {m : Lock} (hm : m.rank ≤ 1) {rest : Prog} (hr : Runs [] rest []) : Runs [] (gettimeout_part m rest) [] :=
  runs_append (runs_append (runs_lock0 m) (.loop (runs_either (.skip _) (.branch fun t => runs_fifo_add (by simpa using hm) t))))
    (runs_either (.unlock ..) (runs_append (.unlock ..) hr))

/-- The functions that never take `ixt_fastmutex` and never call back: neither those for retransmissions, nor `osip_timers_gettimeout`, nor
the ones that execute events. -/
def Harmless (c : Nat) : Prop := c ∉ [0, 1, 2, 9, 10, 11, 12, 13, 14]

/-- A harmless function can be called with `ixt_fastmutex`. -/
theorem runs_harmless {c : Nat} (hc : Harmless c) {h : List Lock} (hr : ∀ x ∈ h, x.rank = 0) : Runs h (api c) h := by
  unfold api
  split
  all_goals first | (exfalso; revert hc; simp [Harmless]; done) | skip
  · exact runs_osip_remove hr
  · exact runs_free2 hr
  · exact runs_free hr
  · exact runs_init hr
  · exact runs_find_all hr
  · exact .branch fun t => runs_fifo_add (low_le hr) t
  · exact runs_timers hr rfl
  · exact runs_timers hr rfl
  · exact runs_timers hr rfl
  · exact runs_timers hr rfl
  · exact .branch fun t => runs_fifo_add (low_le hr) t
  · exact .branch fun t => runs_tryget (low_le hr) t
  · exact .skip _

/-- Every function takes and gives back the mutexes in order, and ends without any. -/
theorem runs_api (c : Nat) : Runs [] (api c) [] := by
  by_cases hc : Harmless c
  · exact runs_harmless hc (by simp)
  · simp only [Harmless, Classical.not_not, List.mem_cons, List.not_mem_nil, or_false] at hc
    rcases hc with rfl | rfl | rfl | rfl | rfl | rfl | rfl | rfl | rfl
    · exact runs_either (.skip _) (runs_append (runs_lock0 _) (.unlock ..))
    · exact runs_either (.skip _) (runs_append (runs_append (runs_lock0 _) (.loop (.skip _))) (.unlock ..))
    · exact runs_append (runs_append (runs_lock0 _) (.loop (runs_either (.skip _) (.send (by simp [Lock.rank]))))) (.unlock ..)
    · exact .loop .callback
    · exact runs_execute _
    · exact runs_execute _
    · exact runs_execute _
    · exact runs_execute _
    · exact runs_gettimeout (by decide) (runs_gettimeout (by decide) (runs_gettimeout (by decide) (runs_gettimeout (by decide)
        (runs_gettimeout (by decide) (.skip _)))))

theorem inv_skip {h h' : List Lock} (e : Runs h .skip h') : h' = h := by cases e; rfl

theorem inv_lock {h h' : List Lock} {m : Lock} (e : Runs h (.lock m) h') : (∀ x ∈ h, x.rank < m.rank) ∧ h' = m :: h := by
  cases e with
  | lock a => exact ⟨a, rfl⟩

theorem inv_unlock {h h' : List Lock} {m : Lock} (e : Runs h (.unlock m) h') : h = m :: h' := by cases e; rfl

theorem inv_seq {h h' : List Lock} {p q : Prog} (e : Runs h (.seq p q) h') : ∃ x, Runs h p x ∧ Runs x q h' := by
  cases e with
  | seq a b => exact ⟨_, a, b⟩

theorem inv_branch {h h' : List Lock} {f : Nat → Prog} (e : Runs h (.branch f) h') (c : Nat) : Runs h (f c) h' := by
  cases e with
  | branch a => exact a c

theorem inv_loop {h h' : List Lock} {p : Prog} (e : Runs h (.loop p) h') : h' = h ∧ Runs h p h := by
  cases e with
  | loop a => exact ⟨rfl, a⟩

theorem inv_callback {h h' : List Lock} (e : Runs h .callback h') : h = [] ∧ h' = [] := by cases e; exact ⟨rfl, rfl⟩

theorem inv_send {h h' : List Lock} (e : Runs h .send h') : h' = h ∧ ∀ x ∈ h, x.rank = 0 := by
  cases e with
  | send a => exact ⟨rfl, a⟩

/-- What a thread has to do, started with these mutexes, ends without any. -/
inductive RunsAll : List Lock → List Prog → Prop
  | nil : RunsAll [] []
  | cons {h h' : List Lock} {p : Prog} {k : List Prog} : Runs h p h' → RunsAll h' k → RunsAll h (p :: k)

/-- Threads have the mutexes they need. -/
def Good (s : Sys) : Prop := ∃ held : Nat → List Lock,
  (∀ i, RunsAll (held i) (s.todo i)) ∧ (∀ i m, m ∈ held i ↔ s.owner m = some i) ∧ (∀ i, (held i).Pairwise fun a b => b.rank < a.rank)

theorem good_init : Good {} := ⟨fun _ => [], fun _ => .nil, by simp, by simp⟩

/-- Only the first thread has changed, and its mutexes stay the same. -/
theorem good_goto {s : Sys} {held : Nat → List Lock} (h1 : ∀ i, RunsAll (held i) (s.todo i)) (h2 : ∀ i m, m ∈ held i ↔ s.owner m = some i)
    (h3 : ∀ i, (held i).Pairwise fun a b => b.rank < a.rank) {i : Nat} {k : List Prog} (hk : RunsAll (held i) k) : Good (s.goto i k) := by
  refine ⟨held, fun j => ?_, h2, h3⟩
  simp only [Sys.goto]
  split
  · next e => subst e; exact hk
  · exact h1 j

theorem good_step {may : Nat → Bool} (hmay : ∀ c, may c = true → Harmless c) {s s' : Sys} (h : Good s) {i c : Nat}
    (e : s.step may i c = some s') : Good s' := by
  obtain ⟨held, h1, h2, h3⟩ := h
  have hi := h1 i
  cases ht : s.todo i with
  | nil =>
    simp only [Sys.step, ht, Option.some.injEq] at e
    subst e
    rw [ht] at hi
    refine good_goto h1 h2 h3 ?_
    generalize held i = x at hi
    cases hi
    exact .cons (runs_api c) .nil
  | cons p k =>
    rw [ht] at hi
    obtain ⟨h', hp, hk⟩ : ∃ h', Runs (held i) p h' ∧ RunsAll h' k := by
      generalize held i = x at hi
      cases hi with
      | cons a b => exact ⟨_, a, b⟩
    cases p with
    | skip =>
      simp only [Sys.step, ht, Option.some.injEq] at e
      subst e
      exact good_goto h1 h2 h3 (inv_skip hp ▸ hk)
    | lock m =>
      simp only [Sys.step, ht] at e
      split at e
      · next hn =>
        simp only [Option.some.injEq] at e
        subst e
        obtain ⟨hr, rfl⟩ := inv_lock hp
        refine ⟨fun j => if j = i then m :: held i else held j, fun j => ?_, fun j x => ?_, fun j => ?_⟩
        · simp only [Sys.own, Sys.goto]
          by_cases hj : j = i
          · simpa [hj] using hk
          · simpa [hj] using h1 j
        · simp only [Sys.own, Sys.goto]
          have := h2 j x
          have hx : x = m → s.owner x = none := fun e => e ▸ hn
          by_cases hj : j = i
          · subst hj
            by_cases hxm : x = m
            · simp [hxm]
            · simp [hxm, this]
          · by_cases hxm : x = m
            · subst hxm
              simp only [hj, if_false, if_true, this, hn]
              simpa using Ne.symm hj
            · simp [hj, hxm, this]
        · by_cases hj : j = i
          · simp only [hj, if_true]
            exact List.pairwise_cons.2 ⟨hr, h3 i⟩
          · simpa [hj] using h3 j
      · simp at e
    | unlock m =>
      simp only [Sys.step, ht] at e
      split at e
      · next hn =>
        simp only [Option.some.injEq] at e
        subst e
        have hh := inv_unlock hp
        have hpw := h3 i
        rw [hh] at hpw
        obtain ⟨hp1, hp2⟩ := List.pairwise_cons.1 hpw
        refine ⟨fun j => if j = i then h' else held j, fun j => ?_, fun j x => ?_, fun j => ?_⟩
        · simp only [Sys.own, Sys.goto]
          by_cases hj : j = i
          · simpa [hj] using hk
          · simpa [hj] using h1 j
        · simp only [Sys.own, Sys.goto]
          have hjx := h2 j x
          by_cases hj : j = i
          · subst hj
            rw [hh] at hjx
            by_cases hxm : x = m
            · subst hxm
              simp only [if_true]
              constructor
              · intro hm; exact absurd (hp1 x hm) (by omega)
              · simp
            · simp only [List.mem_cons, hxm, false_or] at hjx
              simpa [hxm] using hjx
          · by_cases hxm : x = m
            · subst hxm
              simp only [hj, if_false, if_true, hjx, hn]
              simpa using Ne.symm hj
            · simp [hj, hxm, hjx]
        · by_cases hj : j = i
          · simpa [hj] using hp2
          · simpa [hj] using h3 j
      · simp at e
    | seq p q =>
      simp only [Sys.step, ht, Option.some.injEq] at e
      subst e
      obtain ⟨x, a, b⟩ := inv_seq hp
      exact good_goto h1 h2 h3 (.cons a (.cons b hk))
    | branch f =>
      simp only [Sys.step, ht, Option.some.injEq] at e
      subst e
      exact good_goto h1 h2 h3 (.cons (inv_branch hp c) hk)
    | loop p =>
      simp only [Sys.step, ht, Option.some.injEq] at e
      subst e
      refine good_goto h1 h2 h3 ?_
      obtain ⟨rfl, a⟩ := inv_loop hp
      split
      · exact hk
      · exact .cons a (.cons (.loop a) hk)
    | callback =>
      simp only [Sys.step, ht, Option.some.injEq] at e
      subst e
      refine good_goto h1 h2 h3 ?_
      obtain ⟨e1, rfl⟩ := inv_callback hp
      rw [e1]
      split
      · exact hk
      · exact .cons (runs_api _) (.cons .callback hk)
    | send =>
      simp only [Sys.step, ht, Option.some.injEq] at e
      subst e
      refine good_goto h1 h2 h3 ?_
      obtain ⟨rfl, a⟩ := inv_send hp
      split
      · exact hk
      · next hc => exact .cons (runs_harmless (hmay _ (by simpa using (not_or.1 hc).2)) a) (.cons (.send a) hk)

theorem good_reach {may : Nat → Bool} (hmay : ∀ c, may c = true → Harmless c) {s : Sys} (h : Reach may s) : Good s := by
  induction h with
  | init => exact good_init
  | step i c _ e ih => exact good_step hmay ih e

/-- Thread `i` waits for a mutex of thread `j`. -/
def WaitsFor (s : Sys) (i j : Nat) : Prop := ∃ (m : Lock) (k : List Prog), s.todo i = .lock m :: k ∧ s.owner m = some j

/-- Thread `i` can go on, or it waits for a mutex of a thread of which the same holds, and so on. -/
inductive Leads (may : Nat → Bool) (s : Sys) (c : Nat) : Nat → Prop
  | now {i : Nat} : (s.step may i c).isSome = true → Leads may s c i
  | wait {i j : Nat} : WaitsFor s i j → Leads may s c j → Leads may s c i

/-- **C106**, partial. If the callback for retransmissions only calls harmless functions, then there is no deadlock: a thread that cannot go
on waits for a mutex of another thread, and so on, until one comes to a thread that can go on. Missing: `c106_violated`. -/
theorem c106_no_deadlock_partial {may : Nat → Bool} (hmay : ∀ c, may c = true → Harmless c) {s : Sys} (h : Reach may s) (i c : Nat) :
    Leads may s c i := by
  obtain ⟨held, h1, h2, h3⟩ := good_reach hmay h
  -- a thread that cannot go on waits for a mutex of another one
  have wait : ∀ i, (s.step may i c).isSome = false →
      ∃ (m : Lock) (j : Nat), WaitsFor s i j ∧ m ∈ held j ∧ (∀ x ∈ held i, x.rank < m.rank) := by
    intro i hs
    have hi := h1 i
    cases ht : s.todo i with
    | nil => simp [Sys.step, ht] at hs
    | cons p k =>
      rw [ht] at hi
      obtain ⟨h', hp, _⟩ : ∃ h', Runs (held i) p h' ∧ RunsAll h' k := by
        generalize held i = x at hi
        cases hi with
        | cons a b => exact ⟨_, a, b⟩
      cases p with
      | lock m =>
        simp only [Sys.step, ht] at hs
        split at hs
        · simp at hs
        · next hn =>
          obtain ⟨j, hj⟩ := Option.ne_none_iff_exists'.1 hn
          exact ⟨m, j, ⟨m, k, ht, hj⟩, (h2 j m).2 hj, (inv_lock hp).1⟩
      | unlock m =>
        exfalso
        have : s.owner m = some i := by
          rw [← h2 i m, inv_unlock hp]
          simp
        simp [Sys.step, ht, this] at hs
      | _ => simp [Sys.step, ht] at hs
  have rank2 : ∀ m : Lock, m.rank ≤ 2 := fun m => by cases m <;> simp [Lock.rank]
  have key : ∀ (n : Nat) (i : Nat) (m : Lock), m ∈ held i → 2 - m.rank < n → Leads may s c i := by
    intro n
    induction n with
    | zero => intro i m _ h; omega
    | succ n ih =>
      intro i m hm hn
      cases hs : (s.step may i c).isSome with
      | true => exact .now hs
      | false =>
        obtain ⟨m', j, hj, hmj, hr⟩ := wait i hs
        have := hr m hm
        have := rank2 m'
        exact .wait hj (ih j m' hmj (by omega))
  cases hs : (s.step may i c).isSome with
  | true => exact .now hs
  | false =>
    obtain ⟨m, j, hj, hmj, _⟩ := wait i hs
    exact .wait hj (key 3 j m hmj (by omega))

/-- **C106**, partial. A thread that is not in a function of the library has no mutex, and no thread unlocks a mutex that it does not have. Missing: a
callback for retransmissions that calls other functions. -/
theorem c106_released_partial {may : Nat → Bool} (hmay : ∀ c, may c = true → Harmless c) {s : Sys} (h : Reach may s) (i : Nat) :
    (s.todo i = [] → ∀ m, s.owner m ≠ some i) ∧ ∀ (m : Lock) (k : List Prog), s.todo i = .unlock m :: k → s.owner m = some i := by
  obtain ⟨held, h1, h2, h3⟩ := good_reach hmay h
  have hi := h1 i
  constructor
  · intro ht m hm
    rw [ht] at hi
    have := (h2 i m).2 hm
    generalize held i = x at hi this
    cases hi
    simp at this
  · intro m k ht
    rw [ht] at hi
    rw [← h2 i m]
    generalize held i = x at hi
    cases hi with
    | cons a b => rw [inv_unlock a]; simp

/-- The states along a schedule. -/
def run (may : Nat → Bool) : List (Nat × Nat) → Sys → Option Sys
  | [], s => some s
  | (i, c) :: w, s => (s.step may i c).bind (run may w)

theorem run_reach {may : Nat → Bool} (w : List (Nat × Nat)) : ∀ {s s' : Sys}, Reach may s → run may w s = some s' → Reach may s' := by
  induction w with
  | nil => intro s s' h e; simp only [run, Option.some.injEq] at e; exact e ▸ h
  | cons p w ih =>
    intro s s' h e
    obtain ⟨i, c⟩ := p
    simp only [run, Option.bind_eq_some_iff] at e
    obtain ⟨t, e1, e2⟩ := e
    exact ih (.step i c h e1) e2

/-- The steps of a program that leaves its loops and callbacks at once. -/
def Prog.size : Prog → Nat
  | .seq p q => 1 + p.size + q.size
  | .branch f => 1 + (f 0).size
  | _ => 1

def weight : List Prog → Nat
  | [] => 0
  | p :: k => p.size + weight k

def total (s : Sys) : Nat → Nat
  | 0 => 0
  | n + 1 => total s n + weight (s.todo n)

theorem step_others {may : Nat → Bool} {s s' : Sys} {i c : Nat} (e : s.step may i c = some s') {j : Nat} (hj : j ≠ i) : s'.todo j = s.todo j := by
  unfold Sys.step at e
  split at e <;> (try split at e) <;> simp at e <;> subst e <;> simp [Sys.goto, Sys.own, hj]

theorem step_weight {may : Nat → Bool} {s s' : Sys} {i : Nat} (hb : s.todo i ≠ []) (e : s.step may i 0 = some s') :
    weight (s'.todo i) < weight (s.todo i) := by
  unfold Sys.step at e
  split at e <;> (try split at e) <;> simp at e <;> subst e <;> simp_all [Sys.goto, Sys.own, weight, Prog.size] <;> omega

theorem total_le {s s' : Sys} {i : Nat} (ho : ∀ j, j ≠ i → s'.todo j = s.todo j) (hi : weight (s'.todo i) ≤ weight (s.todo i)) (n : Nat) :
    total s' n ≤ total s n := by
  induction n with
  | zero => exact Nat.le_refl _
  | succ n ih =>
    simp only [total]
    by_cases h : n = i
    · subst h; omega
    · rw [ho n h]; omega

theorem total_lt {s s' : Sys} {i : Nat} (ho : ∀ j, j ≠ i → s'.todo j = s.todo j) (hi : weight (s'.todo i) < weight (s.todo i)) {n : Nat}
    (hn : i < n) : total s' n < total s n := by
  induction n with
  | zero => omega
  | succ n ih =>
    simp only [total]
    by_cases h : n = i
    · subst h
      have := total_le ho (Nat.le_of_lt hi) n
      omega
    · rw [ho n h]
      have := ih (by omega)
      omega

theorem busy_finite {may : Nat → Bool} {s : Sys} (h : Reach may s) : ∃ n, ∀ j, n ≤ j → s.todo j = [] := by
  induction h with
  | init => exact ⟨0, fun _ _ => rfl⟩
  | step i c _ e ih =>
    obtain ⟨n, hn⟩ := ih
    refine ⟨max n (i + 1), fun j hj => ?_⟩
    rw [step_others e (by omega)]
    exact hn j (by omega)

/-- **C106**, partial. Whatever happened, the threads can go on until all of them have left the library, without a further call.
Missing: `c106_violated`. -/
theorem c106_can_finish_partial {may : Nat → Bool} (hmay : ∀ c, may c = true → Harmless c) {s : Sys} (h : Reach may s) :
    ∃ (w : List Nat) (s' : Sys), run may (w.map fun i => (i, 0)) s = some s' ∧ (∀ j, s'.todo j = []) ∧
      (∀ i ∈ w, s.todo i ≠ []) ∧ ∀ m, s'.owner m = none := by
  obtain ⟨n, hn⟩ := busy_finite h
  induction ht : total s n using Nat.strongRecOn generalizing s with
  | _ t ih =>
    by_cases hall : ∀ j, s.todo j = []
    · refine ⟨[], s, rfl, hall, by simp, fun m => ?_⟩
      cases ho : s.owner m with
      | none => rfl
      | some i => exact absurd ho ((c106_released_partial hmay h i).1 (hall i) m)
    · obtain ⟨i, hi⟩ := Classical.not_forall.1 hall
      obtain ⟨j, hj, hjs⟩ : ∃ j, s.todo j ≠ [] ∧ (s.step may j 0).isSome = true := by
        have hl := c106_no_deadlock_partial hmay h i 0
        clear hall
        induction hl with
        | now h1 => exact ⟨_, hi, h1⟩
        | @wait i j hw _ ih' =>
          obtain ⟨m, k, _, ho⟩ := hw
          exact ih' fun ht => (c106_released_partial hmay h j).1 ht m ho
      obtain ⟨s₁, hs₁⟩ := Option.isSome_iff_exists.1 hjs
      have hjn : j < n := by
        rcases Nat.lt_or_ge j n with h | h
        · exact h
        · exact absurd (hn j h) hj
      have hlt := total_lt (fun k hk => step_others hs₁ hk) (step_weight hj hs₁) hjn
      obtain ⟨w, s', hw, h1, h2, h3⟩ := ih (total s₁ n) (by omega) (.step j 0 h hs₁)
        (fun k hk => by rw [step_others hs₁ (by omega)]; exact hn k hk) rfl
      refine ⟨j :: w, s', by simp [run, hs₁, hw], h1, ?_, h3⟩
      intro k hk
      rcases List.mem_cons.1 hk with rfl | hk
      · exact hj
      · by_cases hkj : k = j
        · exact hkj ▸ hj
        · rw [← step_others hs₁ hkj]
          exact h2 k hk

/-- Thread 0 calls `osip_retransmissions_execute`; the callback calls `osip_stop_retransmissions_from_dialog`. -/
def selfLock : List (Nat × Nat) := [(0, 2), (0, 0), (0, 0), (0, 0), (0, 1), (0, 1), (0, 2), (0, 1), (0, 0), (0, 0)]

/-- A thread that waits for a mutex which it has itself. -/
def Stuck (s : Sys) : Prop := ∃ (m : Lock) (k : List Prog), s.todo 0 = .lock m :: k ∧ s.owner m = some 0

theorem stuck_step {may : Nat → Bool} {s s' : Sys} (h : Stuck s) {i c : Nat} (e : s.step may i c = some s') : Stuck s' := by
  obtain ⟨m, k, h1, h2⟩ := h
  have hi : i ≠ 0 := by
    rintro rfl
    simp [Sys.step, h1, h2] at e
  refine ⟨m, k, ?_, ?_⟩
  · unfold Sys.step at e
    split at e <;> (try split at e) <;> simp at e <;> subst e <;> simpa [Sys.goto, Sys.own, Ne.symm hi] using h1
  · unfold Sys.step at e
    split at e <;> (try split at e) <;> simp at e <;> subst e <;> simp only [Sys.goto, Sys.own] <;> grind

/-- **C106 fails** if the callback for retransmissions stops retransmissions: the thread waits for the mutex that it has, and whatever the
other threads do, it never goes on. -/
theorem c106_violated : ∃ s : Sys, Reach (· == 1) s ∧ ∀ (w : List (Nat × Nat)) (s' : Sys), run (· == 1) w s = some s' →
    ∀ c, s'.step (· == 1) 0 c = none := by
  have h : ((run (· == 1) selfLock {}).any fun s => match s.todo 0 with
    | .lock m :: _ => s.owner m == some 0
    | _ => false) = true := by decide +kernel
  cases hr : run (· == 1) selfLock {} with
  | none => simp [hr] at h
  | some s =>
    simp only [hr, Option.any_some] at h
    have hst : Stuck s := by
      cases ht : s.todo 0 with
      | nil => simp [ht] at h
      | cons p k =>
        cases p with
        | lock m => simp only [ht, beq_iff_eq] at h; exact ⟨m, k, ht, h⟩
        | _ => simp [ht] at h
    refine ⟨s, run_reach _ .init hr, fun w => ?_⟩
    clear h hr
    induction w generalizing s with
    | nil =>
      intro s' e c
      simp only [run, Option.some.injEq] at e
      subst e
      obtain ⟨m, k, h1, h2⟩ := hst
      simp [Sys.step, h1, h2]
    | cons p w ih =>
      intro s' e c
      obtain ⟨i, d⟩ := p
      simp only [run, Option.bind_eq_some_iff] at e
      obtain ⟨t, e1, e2⟩ := e
      exact ih t (stuck_step hst e1) s' e2 c

/-- Thread 0 handles the timers and has the mutex of the first list; thread 1 looks for a transaction and waits for it; thread 2 adds an event
to the queue of a transaction, for which thread 0 waits. Thread 2 goes on. -/
example : ((run (fun _ => false) ([(0, 15), (0, 0), (0, 0), (0, 0), (1, 7), (1, 0), (1, 0), (1, 0), (2, 8), (2, 4), (2, 0), (2, 0), (0, 1), (0, 4), (0, 0), (0, 1), (0, 0)]) {}).any
    fun s => (s.owner .ict == some 0) && (s.owner (.fifo 4) == some 2) && (s.step (fun _ => false) 0 0).isNone && (s.step (fun _ => false) 1 0).isNone &&
      (s.step (fun _ => false) 2 0).isSome) = true := by decide +kernel

end Osip.Locks
