import Verif.Cond.Model

/-!
# C110: condition variables on Windows
-/

set_option autoImplicit false

namespace Osip.Cond

variable {T : Type} [DecidableEq T]

/-! ## Specification -/

/-- A thread that holds the external mutex: it has locked it, or called a function that waits and has not given it back yet, or has got it
back. -/
def Pos.has : Pos → Bool
  | .held | .w1 | .w2 | .w5 | .t1 => true
  | _ => false

/-- A thread that holds the mutex of the condition variable. -/
def Pos.hasC : Pos → Bool
  | .w2 | .w3 | .w4 | .w5 => true
  | _ => false

/-- A thread inside of `osip_cond_wait`. -/
def Pos.waits : Pos → Bool
  | .w1 | .w2 | .w3 | .w4 | .w5 => true
  | _ => false

/-- A thread inside of one of the two functions. -/
def Pos.inside : Pos → Bool
  | .idle | .held => false
  | _ => true

/-- A state that some threads can reach. -/
def Reach (s : State T) : Prop := ∃ l, run State.init l = some s

/-- The invariant. -/
structure Inv (s : State T) : Prop where
  ext : ∀ t, (s.pos t).has = true ↔ s.ext = some t
  own : ∀ t, (s.pos t).hasC = true ↔ s.own = some t

theorem inv_init : Inv (State.init : State T) := ⟨by simp [State.init, Pos.has], by simp [State.init, Pos.hasC]⟩

theorem inv_step {s s' : State T} {t : T} {a : Act} (h : Inv s) (e : step s t a = some s') : Inv s' := by
  obtain ⟨h1, h2⟩ := h
  have k1 := h1 t
  have k2 := h2 t
  unfold step at e
  split at e <;> (try split at e) <;> cases e <;> rename_i hp _ <;> (try rename_i hq) <;> constructor <;> intro u <;>
    by_cases hu : u = t <;> (try subst hu) <;> grind [State.move, Pos.has, Pos.hasC]

theorem run_append (s : State T) (l l' : List (T × Act)) : run s (l ++ l') = (run s l).bind fun s => run s l' := by
  induction l generalizing s with
  | nil => rfl
  | cons x l ih =>
    obtain ⟨t, a⟩ := x
    simp only [List.cons_append, run]
    cases step s t a with
    | none => rfl
    | some s => exact ih s

theorem inv_run {s s' : State T} (l : List (T × Act)) (h : Inv s) (e : run s l = some s') : Inv s' := by
  induction l generalizing s with
  | nil => cases e; exact h
  | cons x l ih =>
    obtain ⟨t, a⟩ := x
    simp only [run, Option.bind_eq_some_iff] at e
    obtain ⟨s1, h1, e⟩ := e
    exact ih (inv_step h h1) e

theorem inv_reach {s : State T} (h : Reach s) : Inv s := by
  obtain ⟨l, h⟩ := h
  exact inv_run l inv_init h

/-! ## The mutex -/

/-- **C110**, mutual exclusion: no two threads hold the external mutex, so a function that waits returns with the mutex held by the caller
alone. -/
theorem c110_exclusion {s : State T} (h : Reach s) {t u : T} (ht : (s.pos t).has = true) (hu : (s.pos u).has = true) : t = u := by
  have hi := inv_reach h
  have h1 := (hi.ext t).1 ht
  have h2 := (hi.ext u).1 hu
  rw [h1] at h2
  exact Option.some.inj h2

example : Reach (T := Nat) ⟨fun t => if t = 0 then .w3 else if t = 1 then .held else .idle, some 1, some 0, 0⟩ := by
  refine ⟨[(0, .lock), (0, .wait), (0, .go), (0, .go), (1, .lock)], ?_⟩
  simp [run, step, State.init, State.move]
  funext t
  by_cases h0 : t = 0
  · simp [h0]
  · by_cases h1 : t = 1 <;> simp [h0, h1]

/-! ## Signals -/

/-- The number of signals given. -/
def signals (l : List (T × Act)) : Nat := l.countP fun x => x.2 == .signal

/-- The number of times that a thread which waits is woken by a signal. -/
def woken (s : State T) : List (T × Act) → Nat
  | [] => 0
  | (t, a) :: l => (if (s.pos t = .w3 ∨ s.pos t = .t2) ∧ a = .go then 1 else 0) + ((step s t a).map fun s => woken s l).getD 0

theorem count_step {s s' : State T} {t : T} {a : Act} (e : step s t a = some s') (hs : s.sem + (if a = .signal then 1 else 0) ≤ LONG_MAX) :
    s'.sem + (if (s.pos t = .w3 ∨ s.pos t = .t2) ∧ a = .go then 1 else 0) = s.sem + (if a = .signal then 1 else 0) := by
  unfold step at e
  split at e <;> (try split at e) <;> cases e <;> grind [State.move]

theorem count_run (l : List (T × Act)) : ∀ {s s' : State T}, run s l = some s' → s.sem + signals l ≤ LONG_MAX →
    s'.sem + woken s l = s.sem + signals l := by
  induction l with
  | nil => intro s s' e h; cases e; simp [signals, woken]
  | cons x l ih =>
    obtain ⟨t, a⟩ := x
    intro s s' e h
    simp only [run, Option.bind_eq_some_iff] at e
    obtain ⟨s1, h1, e⟩ := e
    have hc : signals ((t, a) :: l) = signals l + (if a = .signal then 1 else 0) := by simp [signals, List.countP_cons]
    rw [hc] at h ⊢
    have h2 := count_step h1 (by omega)
    have h3 := ih e (by omega)
    simp only [woken, h1, Option.map_some, Option.getD_some]
    omega

/-- **C110**, signals: every signal wakes exactly one thread or is kept for the next one that waits; none is lost and none wakes two. -/
theorem c110_signals {l : List (T × Act)} {s : State T} (h : run State.init l = some s) (hl : signals l ≤ LONG_MAX) :
    s.sem + woken State.init l = signals l := by
  have := count_run l h (by simpa [State.init] using hl)
  simpa [State.init] using this

/-- A signal is kept even if no thread waits: the next call returns at once. -/
example : (run (State.init : State Nat) [(1, .signal), (0, .lock), (0, .wait), (0, .go), (0, .go), (0, .go), (0, .go), (0, .go)]).map
    (fun s => (s.pos 0, s.sem)) = some (.held, 0) := by decide +kernel

/-! ## Return -/

/-- What threads do to finish: no signal, no new call and no new lock. -/
def Finishing (l : List (T × Act)) : Prop := ∀ x ∈ l, x.2 = .go ∨ x.2 = .unlock ∨ x.2 = .timeout

/-- At most one thread is inside of `osip_cond_wait`. -/
def OneWaits (s : State T) : Prop := ∀ u v, (s.pos u).waits = true → (s.pos v).waits = true → u = v

theorem run_cons {s s1 : State T} {t : T} {a : Act} (h : step s t a = some s1) (l : List (T × Act)) : run s ((t, a) :: l) = run s1 l := by
  simp [run, h]

theorem free_mutex {s : State T} (hi : Inv s) (h1 : OneWaits s) {t : T} (ht : (s.pos t).has = false) :
    ∃ l s', run s l = some s' ∧ Finishing l ∧ s'.ext = none ∧ s'.pos t = s.pos t := by
  cases hx : s.ext with
  | none => exact ⟨[], s, rfl, by simp [Finishing], hx, rfl⟩
  | some u =>
    have hu : (s.pos u).has = true := (hi.ext u).2 hx
    have hne : t ≠ u := by rintro rfl; rw [ht] at hu; cases hu
    have hown : s.pos u = .w1 → s.own = none := by
      intro hp
      cases ho : s.own with
      | none => rfl
      | some v =>
        have hv : (s.pos v).hasC = true := (hi.own v).2 ho
        have : v = u := h1 v u (by revert hv; cases s.pos v <;> simp [Pos.hasC, Pos.waits]) (by rw [hp]; rfl)
        subst this
        rw [hp] at hv
        cases hv
    match hp : s.pos u with
    | .held =>
      exact ⟨[(u, .unlock)], { s.move u .idle with ext := none }, by simp [run, step, hp], by simp [Finishing], rfl, by simp [State.move, hne]⟩
    | .t1 =>
      exact ⟨[(u, .go)], { s.move u .t2 with ext := none }, by simp [run, step, hp], by simp [Finishing], rfl, by simp [State.move, hne]⟩
    | .w1 =>
      refine ⟨[(u, .go), (u, .go)], { ({ s.move u .w2 with own := some u } : State T).move u .w3 with ext := none }, ?_, by simp [Finishing], rfl, by simp [State.move, hne]⟩
      simp [run, step, hp, hown hp, State.move]
    | .w2 =>
      exact ⟨[(u, .go)], { s.move u .w3 with ext := none }, by simp [run, step, hp], by simp [Finishing], rfl, by simp [State.move, hne]⟩
    | .w5 =>
      refine ⟨[(u, .go), (u, .unlock)], { ({ s.move u .held with own := none } : State T).move u .idle with ext := none }, ?_, by simp [Finishing], rfl, by simp [State.move, hne]⟩
      simp [run, step, hp, State.move]
    | .idle => rw [hp] at hu; cases hu
    | .w3 => rw [hp] at hu; cases hu
    | .w4 => rw [hp] at hu; cases hu
    | .t2 => rw [hp] at hu; cases hu
    | .t3 => rw [hp] at hu; cases hu

/-- **C110**, return: in every state with at most one thread inside of `osip_cond_wait`, a thread inside of one of the two functions can return
with the mutex, if there is a signal for it or it waits until a time; the other threads need only give back the mutex.
Missing: two threads inside of `osip_cond_wait`, see `c110_two_waiters`. -/
theorem c110_returns_partial {s : State T} (h : Reach s) (h1 : OneWaits s) {t : T} (ht : (s.pos t).inside = true)
    (hs : s.pos t ∈ [.w1, .w2, .w3] → 0 < s.sem) :
    ∃ l s', run s l = some s' ∧ Finishing l ∧ s'.pos t = .held := by
  have hi := inv_reach h
  have fin : ∀ {l : List (T × Act)} (l' : List Act), Finishing l → (∀ a ∈ l', a = .go ∨ a = .timeout) → Finishing (l ++ l'.map fun a => (t, a)) := by
    intro l l' h1 h2 x hx
    rcases List.mem_append.1 hx with hx | hx
    · exact h1 x hx
    · obtain ⟨a, ha, rfl⟩ := List.mem_map.1 hx
      rcases h2 a ha with h | h
      · exact .inl h
      · exact .inr (.inr h)
  match hp : s.pos t with
  | .idle => rw [hp] at ht; cases ht
  | .held => rw [hp] at ht; cases ht
  | .w1 =>
    have ho : s.own = none := by
      cases ho : s.own with
      | none => rfl
      | some v =>
        have hv : (s.pos v).hasC = true := (hi.own v).2 ho
        have : v = t := h1 v t (by revert hv; cases s.pos v <;> simp [Pos.hasC, Pos.waits]) (by rw [hp]; rfl)
        subst this
        rw [hp] at hv
        cases hv
    have h2 := hs (by rw [hp]; simp)
    refine ⟨[.go, .go, .go, .go, .go].map fun a => (t, a), ?_⟩
    simp [run, step, hp, ho, State.move, h2, Finishing]
  | .w2 =>
    have h2 := hs (by rw [hp]; simp)
    refine ⟨[.go, .go, .go, .go].map fun a => (t, a), ?_⟩
    simp [run, step, hp, State.move, h2, Finishing]
  | .w3 =>
    have h2 := hs (by rw [hp]; simp)
    have e1 : step s t .go = some { s.move t .w4 with sem := s.sem - 1 } := by simp [step, hp, h2]
    have hi' := inv_step hi e1
    have h1' : OneWaits ({ s.move t .w4 with sem := s.sem - 1 } : State T) := by
      intro u v hu hv
      refine h1 u v ?_ ?_
      · by_cases h : u = t
        · subst h; rw [hp]; rfl
        · simpa [State.move, h] using hu
      · by_cases h : v = t
        · subst h; rw [hp]; rfl
        · simpa [State.move, h] using hv
    obtain ⟨l, s2, hr, hf, he, hq⟩ := free_mutex hi' h1' (t := t) (by simp [State.move, Pos.has])
    have hq : s2.pos t = .w4 := by rw [hq]; simp [State.move]
    refine ⟨(t, .go) :: (l ++ [.go, .go].map fun a => (t, a)), ?_⟩
    rw [run_cons e1, run_append, hr]
    refine ⟨{ ({ s2.move t .w5 with ext := some t } : State T).move t .held with own := none }, ?_, ?_, ?_⟩
    · simp [run, step, hq, he, State.move]
    · intro x hx
      rcases List.mem_cons.1 hx with rfl | hx
      · exact .inl rfl
      · exact fin [.go, .go] hf (by simp) x hx
    · simp [State.move]
  | .w4 =>
    obtain ⟨l, s2, hr, hf, he, hq⟩ := free_mutex hi h1 (t := t) (by simp [hp, Pos.has])
    rw [hp] at hq
    refine ⟨l ++ [.go, .go].map fun a => (t, a), { ({ s2.move t .w5 with ext := some t } : State T).move t .held with own := none }, ?_, fin _ hf (by simp), by simp [State.move]⟩
    rw [run_append, hr]
    simp [run, step, hq, he, State.move]
  | .w5 =>
    exact ⟨[(t, .go)], { s.move t .held with own := none }, by simp [run, step, hp], by simp [Finishing], by simp [State.move]⟩
  | .t1 =>
    refine ⟨[.go, .timeout, .go].map fun a => (t, a), ?_⟩
    simp [run, step, hp, State.move, Finishing]
  | .t2 =>
    have e1 : step s t .timeout = some (s.move t .t3) := by simp [step, hp]
    have hi' := inv_step hi e1
    have h1' : OneWaits (s.move t .t3) := by
      intro u v hu hv
      have key : ∀ w, ((s.move t .t3).pos w).waits = true → (s.pos w).waits = true := by
        intro w hw
        by_cases h : w = t
        · subst h; simp [State.move, Pos.waits] at hw
        · simpa [State.move, h] using hw
      exact h1 u v (key u hu) (key v hv)
    obtain ⟨l, s2, hr, hf, he, hq⟩ := free_mutex hi' h1' (t := t) (by simp [State.move, Pos.has])
    have hq : s2.pos t = .t3 := by rw [hq]; simp [State.move]
    refine ⟨(t, .timeout) :: (l ++ [.go].map fun a => (t, a)), { s2.move t .held with ext := some t }, ?_, ?_, by simp [State.move]⟩
    · rw [run_cons e1, run_append, hr]
      simp [run, step, hq, he]
    · intro x hx
      rcases List.mem_cons.1 hx with rfl | hx
      · exact .inr (.inr rfl)
      · exact fin [.go] hf (by simp) x hx
  | .t3 =>
    obtain ⟨l, s2, hr, hf, he, hq⟩ := free_mutex hi h1 (t := t) (by simp [hp, Pos.has])
    rw [hp] at hq
    refine ⟨l ++ [.go].map fun a => (t, a), { s2.move t .held with ext := some t }, ?_, fin _ hf (by simp), by simp [State.move]⟩
    rw [run_append, hr]
    simp [run, step, hq, he]

/-- **C110** does not hold for two threads: if a thread waits in `osip_cond_wait` and another one has called it, then whatever any thread does,
signals included, neither call ever returns and nobody gets the mutex again. -/
theorem c110_two_waiters {s : State T} (h : Reach s) {t u : T} (ht : s.pos t = .w3 ∨ s.pos t = .w4) (hu : s.pos u = .w1)
    {l : List (T × Act)} {s' : State T} (e : run s l = some s') :
    (s'.pos t = .w3 ∨ s'.pos t = .w4) ∧ s'.pos u = .w1 ∧ s'.ext = some u := by
  have hi := inv_reach h
  clear h
  induction l generalizing s with
  | nil => cases e; exact ⟨ht, hu, (hi.ext u).1 (by rw [hu]; rfl)⟩
  | cons x l ih =>
    obtain ⟨v, a⟩ := x
    simp only [run, Option.bind_eq_some_iff] at e
    obtain ⟨s1, e1, e⟩ := e
    have hx : s.ext = some u := (hi.ext u).1 (by rw [hu]; rfl)
    have ho : s.own = some t := (hi.own t).1 (by rcases ht with h | h <;> rw [h] <;> rfl)
    have hi1 := inv_step hi e1
    have hne : t ≠ u := by rintro rfl; rw [hu] at ht; simp at ht
    refine ih ?_ ?_ e hi1
    · by_cases hv : v = t
      · subst hv
        unfold step at e1
        rcases ht with h | h <;> rw [h] at e1 <;> cases a <;> grind [State.move]
      · have : s1.pos t = s.pos t := by
          unfold step at e1
          split at e1 <;> (try split at e1) <;> cases e1 <;> simp [State.move, Ne.symm hv]
        rw [this]; exact ht
    · by_cases hv : v = u
      · subst hv
        unfold step at e1
        rw [hu] at e1
        cases a <;> grind [State.move]
      · have : s1.pos u = s.pos u := by
          unfold step at e1
          split at e1 <;> (try split at e1) <;> cases e1 <;> simp [State.move, Ne.symm hv]
        rw [this]; exact hu

/-- This happens: two threads lock the mutex in turn and wait; the first is signalled. -/
theorem c110_violated : ∃ s : State Nat, run State.init [(0, .lock), (0, .wait), (0, .go), (0, .go), (1, .lock), (1, .wait), (2, .signal), (0, .go)] = some s ∧
    s.pos 0 = .w4 ∧ s.pos 1 = .w1 ∧
    ∀ l s', run s l = some s' → (s'.pos 0 = .w3 ∨ s'.pos 0 = .w4) ∧ s'.pos 1 = .w1 ∧ s'.ext = some 1 := by
  have h : ((run (State.init : State Nat) [(0, .lock), (0, .wait), (0, .go), (0, .go), (1, .lock), (1, .wait), (2, .signal), (0, .go)]).any fun s =>
      s.pos 0 == .w4 && s.pos 1 == .w1) = true := by decide +kernel
  rw [Option.any_eq_true] at h
  obtain ⟨s, hs, h⟩ := h
  simp only [Bool.and_eq_true, beq_iff_eq] at h
  exact ⟨s, hs, h.1, h.2, fun l s' e => c110_two_waiters ⟨_, hs⟩ (.inr h.1) h.2 e⟩

/-! ## The time -/

/-- **C110**, time: the wait ends less than one millisecond before or after the time asked for, if the time is less than 24 days away.
Missing: times farther away, see `c110_time_violated`. -/
theorem c110_time_partial {startSec startNsec endSec endNsec : Int} (h1 : 0 ≤ startNsec ∧ startNsec < 1000000000)
    (h2 : 0 ≤ endNsec ∧ endNsec < 1000000000) (h3 : -2073600 ≤ endSec - startSec ∧ endSec - startSec ≤ 2073600) :
    ∃ d, delta_time startSec startNsec endSec endNsec = some d ∧
      d * 1000000 - 1000000 < (endSec * 1000000000 + endNsec) - (startSec * 1000000000 + startNsec) ∧
      (endSec * 1000000000 + endNsec) - (startSec * 1000000000 + startNsec) < d * 1000000 + 1000000 := by
  have hq : (endNsec - startNsec).tdiv 1000000 * 1000000 - 1000000 < endNsec - startNsec ∧
      endNsec - startNsec < (endNsec - startNsec).tdiv 1000000 * 1000000 + 1000000 := by
    generalize endNsec - startNsec = n
    have e := Int.mul_tdiv_add_tmod n 1000000
    have b1 := Int.tmod_lt_of_pos n (b := 1000000) (by omega)
    have b2 := Int.lt_tmod_of_pos n (b := 1000000) (by omega)
    omega
  refine ⟨(endSec - startSec) * 1000 + (endNsec - startNsec).tdiv 1000000, ?_, by omega, by omega⟩
  unfold delta_time
  simp only
  rw [if_pos]
  simp only [Bool.and_eq_true, decide_eq_true_eq]
  omega

example : delta_time 100 999000000 101 1500000 = some 3 := by decide
example : delta_time 100 5 99 999999999 = some (-1) := by decide

/-- A time 25 days ahead makes the number of milliseconds overflow. -/
theorem c110_time_violated : delta_time 0 0 (25 * 86400) 0 = none := by decide

end Osip.Cond
