import Verif.Exec.Model

/-!
# C101: every queued event is executed once, in order
-/

set_option autoImplicit false

namespace Osip.Exec

/-- The events of one transaction in a log. -/
def eventsOf (u : Nat) (log : List (Nat × Nat)) : List Nat := (log.filter (·.1 == u)).map (·.2)

/-- Whatever else the application does in its callbacks, it only puts events at the end of queues. -/
def Gentle (h : Handler) : Prop := ∀ t e s u, ∃ a, (h t e s).queue u = s.queue u ++ a ∧ (h t e s).given u = s.given u ++ a

/-- In its callbacks the application frees none of these transactions. -/
def Keeps (ts : List Nat) (h : Handler) : Prop := ∀ t e s, ∀ u ∈ ts, (h t e s).freed u = s.freed u

/-- The execution of a list: for each transaction a block of events. -/
def Blocks : List Nat → List (Nat × Nat) → Prop
  | [], log => log = []
  | t :: ts, log => ∃ (es : List Nat) (rest : List (Nat × Nat)), log = es.map (fun e => (t, e)) ++ rest ∧ Blocks ts rest

theorem eventsOf_append (u : Nat) (a b : List (Nat × Nat)) : eventsOf u (a ++ b) = eventsOf u a ++ eventsOf u b := by
  simp [eventsOf]

theorem steps_inv {h : Handler} {P : State → Prop} (hs : ∀ x y, P x → step h x = some y → P y) :
    ∀ {n : Nat} {x y : State}, P x → steps h n x = some y → P y
  | 0, x, y, hp, e => by simp [steps] at e; subst e; exact hp
  | n + 1, x, y, hp, e => by
    simp only [steps, Option.bind_eq_some_iff] at e
    obtain ⟨z, e1, e2⟩ := e
    exact steps_inv hs (hs x z hp e1) e2

/-- What a round does. -/
theorem step_cases {h : Handler} {x y : State} (e : step h x = some y) :
    (x.todo = [] ∧ y = x) ∨
    (∃ t rest, x.todo = t :: rest ∧ x.host.freed t = false ∧ x.host.queue t = [] ∧ y = { x with todo := rest }) ∨
    (∃ t rest v q, x.todo = t :: rest ∧ x.host.freed t = false ∧ x.host.queue t = v :: q ∧
      y = ⟨x.todo, h t v { x.host with queue := fun u => if u = t then q else x.host.queue u }, x.log ++ [(t, v)]⟩) := by
  unfold step at e
  split at e
  · next h0 => simp at e; exact .inl ⟨h0, e.symm⟩
  · next t rest h0 =>
    split at e
    · simp at e
    · next hf =>
      split at e
      · next hq => simp at e; exact .inr (.inl ⟨t, rest, h0, by simpa using hf, hq, e.symm⟩)
      · next v q hq => simp at e; exact .inr (.inr ⟨t, rest, v, q, h0, by simpa using hf, hq, by rw [← e]⟩)

theorem blocks_event {t v : Nat} : ∀ {ts : List Nat} {log : List (Nat × Nat)}, Blocks (ts ++ [t]) log → Blocks (ts ++ [t]) (log ++ [(t, v)])
  | [], log, ⟨es, rest, e, e'⟩ => by
    simp only [Blocks] at e'
    subst e'
    refine ⟨es ++ [v], [], by simp [e], rfl⟩
  | a :: ts, log, ⟨es, rest, e, e'⟩ => ⟨es, rest ++ [(t, v)], by simp [e], blocks_event e'⟩

theorem blocks_snoc {t : Nat} : ∀ {ts : List Nat} {log : List (Nat × Nat)}, Blocks ts log → Blocks (ts ++ [t]) log
  | [], log, e => ⟨[], log, by simp, e⟩
  | a :: ts, log, ⟨es, rest, e, e'⟩ => ⟨es, rest, e, blocks_snoc e'⟩

/-- What holds at every moment. -/
structure Good (s : Host) (x : State) : Prop where
  split : ∀ u, eventsOf u x.log ++ x.host.queue u = x.host.given u
  first : ∀ u, s.queue u <+: x.host.given u
  past : ∃ past, s.list = past ++ x.todo ∧ Blocks (past ++ x.todo.take 1) x.log ∧ ∀ t ∈ past, s.queue t <+: eventsOf t x.log

theorem good_start {s : Host} (hs : s.given = s.queue) : Good s (start s) where
  split u := by simp [start, eventsOf, hs]
  first u := by simp [start, hs]
  past := by
    refine ⟨[], rfl, ?_, by simp⟩
    simp only [start, List.nil_append]
    cases s.list with
    | nil => exact rfl
    | cons t ts => exact ⟨[], [], rfl, rfl⟩

theorem good_step {h : Handler} (hg : Gentle h) {s : Host} {x y : State} (hx : Good s x) (e : step h x = some y) : Good s y := by
  obtain ⟨h1, h2, past, h3, h4, h5⟩ := hx
  rcases step_cases e with ⟨_, rfl⟩ | ⟨t, rest, e1, _, e3, rfl⟩ | ⟨t, rest, v, q, e1, _, e3, rfl⟩
  · exact ⟨h1, h2, past, h3, h4, h5⟩
  · refine ⟨h1, h2, past ++ [t], by simp [h3, e1], ?_, ?_⟩
    · rw [e1] at h4
      simp only [List.take_succ_cons, List.take_zero] at h4
      cases rest with
      | nil => simpa using h4
      | cons t' rest => exact blocks_snoc h4
    · intro u hu
      rcases List.mem_append.1 hu with hu | hu
      · exact h5 u hu
      · simp at hu
        subst hu
        have := h1 u
        rw [e3, List.append_nil] at this
        show s.queue u <+: eventsOf u x.log
        rw [this]; exact h2 u
  · refine ⟨fun u => ?_, fun u => ?_, past, h3, ?_, ?_⟩
    · obtain ⟨a, g1, g2⟩ := hg t v { x.host with queue := fun u => if u = t then q else x.host.queue u } u
      simp only [g1, g2]
      have := h1 u
      rw [eventsOf_append, ← this]
      by_cases hu : u = t
      · subst hu; simp [e3, eventsOf]
      · have : eventsOf u [(t, v)] = [] := by simp [eventsOf, Ne.symm hu]
        simp [hu, this]
    · obtain ⟨a, g1, g2⟩ := hg t v { x.host with queue := fun u => if u = t then q else x.host.queue u } u
      simp only [g2]
      exact (h2 u).trans (List.prefix_append _ _)
    · simp only [e1, List.take_succ_cons, List.take_zero] at h4 ⊢
      exact blocks_event h4
    · intro u hu
      rw [eventsOf_append]
      exact (h5 u hu).trans (List.prefix_append _ _)

/-- **C101**. At every moment the events executed for a transaction, followed by the ones still queued, are all the events it was
given, in their order; only transactions of the list have events executed, one transaction after the other. -/
theorem c101_each_once {h : Handler} (hg : Gentle h) {s : Host} (hs : s.given = s.queue) {n : Nat} {x : State}
    (hx : steps h n (start s) = some x) :
    (∀ u, eventsOf u x.log ++ x.host.queue u = x.host.given u) ∧
    ∃ past, s.list = past ++ x.todo ∧ Blocks (past ++ x.todo.take 1) x.log := by
  have := steps_inv (P := Good s) (fun _ _ => good_step hg) (good_start hs) hx
  obtain ⟨h1, _, past, h3, h4, _⟩ := this
  exact ⟨h1, past, h3, h4⟩

/-- **C101**. When it is done, everything that was queued for a transaction of the list was executed. -/
theorem c101_done {h : Handler} (hg : Gentle h) {s : Host} (hs : s.given = s.queue) {n : Nat} {x : State}
    (hx : steps h n (start s) = some x) (hd : x.todo = []) {t : Nat} (ht : t ∈ s.list) : s.queue t <+: eventsOf t x.log := by
  have := steps_inv (P := Good s) (fun _ _ => good_step hg) (good_start hs) hx
  obtain ⟨_, _, past, h3, _, h5⟩ := this
  rw [hd, List.append_nil] at h3
  exact h5 t (h3 ▸ ht)

/-- All transactions that are still to be read are alive. -/
def Alive (ts : List Nat) (x : State) : Prop := (∀ t ∈ x.todo, t ∈ ts) ∧ ∀ t ∈ ts, x.host.freed t = false

theorem alive_step {h : Handler} {ts : List Nat} (hk : Keeps ts h) {x : State} (hx : Alive ts x) : ∃ y, step h x = some y ∧ Alive ts y := by
  obtain ⟨h1, h2⟩ := hx
  unfold step
  split
  · exact ⟨x, rfl, h1, h2⟩
  · next t rest h0 =>
    have ht : t ∈ ts := h1 t (by simp [h0])
    rw [h2 t ht, if_neg (by simp)]
    split
    · exact ⟨_, rfl, fun u hu => h1 u (by simp [h0, hu]), h2⟩
    · exact ⟨_, rfl, h1, fun u hu => by simp [hk t _ _ u hu, h2 u hu]⟩

theorem alive_steps {h : Handler} {ts : List Nat} (hk : Keeps ts h) : ∀ (n : Nat) {x : State}, Alive ts x → ∃ y, steps h n x = some y
  | 0, x, _ => ⟨x, rfl⟩
  | n + 1, x, hx => by
    obtain ⟨y, e, hy⟩ := alive_step hk hx
    obtain ⟨z, hz⟩ := alive_steps hk n hy
    exact ⟨z, by simp [steps, e, hz]⟩

/-- **C101**, partial. No freed transaction is read as long as the application frees none of the list in its callbacks. -/
theorem c101_defined_partial {h : Handler} {s : Host} (hk : Keeps s.list h) (hf : ∀ t ∈ s.list, s.freed t = false) (n : Nat) :
    ∃ x, steps h n (start s) = some x :=
  alive_steps hk n (ts := s.list) ⟨fun _ ht => ht, hf⟩

/-- What is left to do. -/
def left (x : State) : Nat := (x.todo.map fun t => (x.host.queue t).length).sum + x.todo.length

theorem sum_le {f g : Nat → Nat} : ∀ {l : List Nat}, (∀ t ∈ l, f t ≤ g t) → (l.map f).sum ≤ (l.map g).sum
  | [], _ => by simp
  | a :: l, h => by
    have := sum_le fun t ht => h t (.tail _ ht)
    have := h a (.head _)
    simp; omega

theorem left_steps {h : Handler} {ts : List Nat} (hk : Keeps ts h) (hq : ∀ t e s', ∀ u ∈ ts, (h t e s').queue u = s'.queue u) :
    ∀ (n : Nat) {x : State}, Alive ts x → left x ≤ n → ∃ y, steps h n x = some y ∧ y.todo = []
  | 0, x, _, hl => ⟨x, rfl, by unfold left at hl; exact List.length_eq_zero_iff.1 (by omega)⟩
  | n + 1, x, hx, hl => by
    obtain ⟨y, e, hy⟩ := alive_step hk hx
    have hly : left y ≤ n := by
      rcases step_cases e with ⟨h0, rfl⟩ | ⟨t, rest, e1, _, e3, rfl⟩ | ⟨t, rest, v, q, e1, _, e3, rfl⟩
      · simp [left, h0]
      · unfold left at hl ⊢
        simp only [e1, List.map_cons, List.sum_cons, List.length_cons, e3] at hl
        simp only
        omega
      · have ht : t ∈ ts := hx.1 t (by simp [e1])
        have hr : ∀ u ∈ rest, u ∈ ts := fun u hu => hx.1 u (by simp [e1, hu])
        unfold left at hl ⊢
        simp only [e1, List.map_cons, List.sum_cons, List.length_cons, e3] at hl ⊢
        have hle := sum_le (l := rest) (f := fun u => ((h t v { x.host with queue := fun u => if u = t then q else x.host.queue u }).queue u).length)
          (g := fun u => (x.host.queue u).length) (by
            intro u hu
            simp only [hq t v _ u (hr u hu)]
            split
            · next hut => subst hut; simp [e3]
            · exact Nat.le_refl _)
        have h0 : ((h t v { x.host with queue := fun u => if u = t then q else x.host.queue u }).queue t).length = q.length := by
          simp [hq t v _ t ht]
        rw [h0]
        have hle' := hle
        simp only at hle'
        refine Nat.le_of_lt_succ (Nat.lt_of_lt_of_le ?_ hl)
        omega
    obtain ⟨z, hz, hd⟩ := left_steps hk hq n hy hly
    exact ⟨z, by simp [steps, e, hz], hd⟩

/-- **C101**, partial. It comes to its end, after as many rounds as there are events and transactions, if the callbacks queue no
events for transactions of the list. -/
theorem c101_ends_partial {h : Handler} {s : Host} (hk : Keeps s.list h) (hf : ∀ t ∈ s.list, s.freed t = false)
    (hq : ∀ t e s', ∀ u ∈ s.list, (h t e s').queue u = s'.queue u) :
    ∃ x, steps h ((s.list.map fun t => (s.queue t).length).sum + s.list.length) (start s) = some x ∧ x.todo = [] :=
  left_steps hk hq _ (ts := s.list) ⟨fun _ ht => ht, hf⟩ (Nat.le_refl _)

/-- Two transactions with events. -/
def two : Host where
  list := [1, 2]
  queue := fun t => if t = 1 then [10, 11] else if t = 2 then [20] else []
  given := fun t => if t = 1 then [10, 11] else if t = 2 then [20] else []
  freed := fun _ => false

/-- **C101** is false without the conditions: if the callback of the first transaction frees the second one, its memory is read; and
if executing an event queues one for the same transaction, the loop never ends. -/
theorem c101_violated :
    steps (fun _ _ s => { s with freed := fun u => u == 2 }) 4 (start two) = none ∧
    ∀ n, ∃ x, steps (fun t e s => { s with queue := fun u => if u = t then s.queue u ++ [e] else s.queue u }) n (start two) = some x ∧
      x.todo = [1, 2] := by
  refine ⟨rfl, fun n => ?_⟩
  have key : ∀ (n : Nat) (x : State), x.todo = [1, 2] → x.host.freed 1 = false → x.host.queue 1 ≠ [] →
      ∃ y, steps (fun t e s => { s with queue := fun u => if u = t then s.queue u ++ [e] else s.queue u }) n x = some y ∧ y.todo = [1, 2] := by
    intro n
    induction n with
    | zero => exact fun x h1 _ _ => ⟨x, rfl, h1⟩
    | succ n ih =>
      intro x h1 h2 h3
      obtain ⟨v, q, hq⟩ := List.exists_cons_of_ne_nil h3
      simp only [steps, step, h1, h2, hq, Option.bind_some]
      exact ih _ rfl h2 (by simp)
  exact key n _ rfl rfl (by decide)

/-- A handler that queues an event for another transaction. -/
def chain : Handler := fun t e s =>
  if t = 1 ∧ e = 11 then { s with queue := fun u => if u = 2 then s.queue u ++ [21] else s.queue u,
                                   given := fun u => if u = 2 then s.given u ++ [21] else s.given u }
  else s

example : Gentle chain := by
  intro t e s u
  by_cases h : t = 1 ∧ e = 11
  · by_cases hu : u = 2
    · exact ⟨[21], by simp [chain, h, hu]⟩
    · exact ⟨[], by simp [chain, h, hu]⟩
  · exact ⟨[], by simp [chain, h]⟩

example : (steps chain 6 (start two)).map (fun x => (x.todo, x.log)) = some ([], [(1, 10), (1, 11), (2, 20), (2, 21)]) := by
  decide +kernel

end Osip.Exec
