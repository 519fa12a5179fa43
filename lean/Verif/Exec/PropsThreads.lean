import Verif.Exec.Threads

/-!
# C102: threads use no freed transaction
-/

set_option autoImplicit false

namespace Osip.Threads

/-- The thread is in `osip_ict_execute` or `osip_create_transaction`. -/
def Pc.executes : Pc → Bool
  | .newLock _ | .newAdd _ | .newUnlock _ | .newRead _ | .firstAdd _ => true
  | .execLock | .execCopy | .execUnlock _ | .execGet _ | .execRun _ | .killLock _ | .killRemove _ | .killUnlock _ => true
  | _ => false

/-- The transaction which a thread is about to add. -/
def Pc.pending : Pc → Option Nat
  | .newLock t | .newAdd t => some t
  | _ => none

/-- The transaction found in the list. -/
def Pc.found : Pc → Option Nat
  | .findAdd t => some t
  | _ => none

structure Inv (mayExec mayCreate : Nat → Bool) (s : Sys) : Prop where
  mutex : ∀ i, (s.pc i).holds = true ↔ s.mutex = some i
  nodup : s.list.Nodup
  nodupR : s.removed.Nodup
  listR : ∀ t ∈ s.list, t ∉ s.removed
  listF : ∀ t ∈ s.list, t ∉ s.freed
  removedF : ∀ t ∈ s.removed, t ∉ s.freed
  known : ∀ t, t ∈ s.list ∨ t ∈ s.removed ∨ t ∈ s.freed → t < s.next
  executes : ∀ i, (s.pc i).executes = true → mayExec i = true ∨ mayCreate i = true
  pendingLt : ∀ i t, (s.pc i).pending = some t → t < s.next ∧ t ∉ s.list ∧ t ∉ s.removed ∧ t ∉ s.freed
  pendingOne : ∀ i j t, (s.pc i).pending = some t → (s.pc j).pending = some t → i = j
  found : ∀ i t, (s.pc i).found = some t → t ∈ s.list
  array : ∀ i, ∀ t ∈ (s.pc i).array, t ∉ s.freed

theorem inv_init (mayExec mayCreate : Nat → Bool) : Inv mayExec mayCreate {} := by
  constructor <;> simp [Pc.holds, Pc.executes, Pc.pending, Pc.found, Pc.array]

/-- A thread goes on without touching anything else. -/
theorem inv_goto {mayExec mayCreate : Nat → Bool} {s : Sys} (h : Inv mayExec mayCreate s) {i : Nat} {p : Pc} (h1 : p.holds = (s.pc i).holds)
    (h2 : p.executes = true → mayExec i = true ∨ mayCreate i = true) (h3 : p.pending = none ∨ p.pending = (s.pc i).pending) (h4 : ∀ t, p.found = some t → t ∈ s.list)
    (h6 : ∀ t ∈ p.array, t ∉ s.freed) : Inv mayExec mayCreate (s.goto i p) where
  mutex j := by
    simp only [Sys.goto]
    split
    · next e => subst e; rw [h1]; exact h.mutex j
    · exact h.mutex j
  nodup := h.nodup
  nodupR := h.nodupR
  listR := h.listR
  listF := h.listF
  removedF := h.removedF
  known := h.known
  executes j := by
    simp only [Sys.goto]
    split
    · next e => subst e; exact h2
    · exact h.executes j
  pendingLt j t := by
    simp only [Sys.goto]
    split
    · intro e
      rcases h3 with h3 | h3
      · rw [h3] at e; simp at e
      · exact h.pendingLt i t (h3 ▸ e)
    · exact h.pendingLt j t
  pendingOne j k t := by
    have : ∀ j, ((s.goto i p).pc j).pending = some t → (s.pc j).pending = some t := by
      intro j
      simp only [Sys.goto]
      split
      · next e =>
        subst e
        intro e
        rcases h3 with h3 | h3
        · rw [h3] at e; simp at e
        · exact h3 ▸ e
      · exact id
    exact fun e1 e2 => h.pendingOne j k t (this j e1) (this k e2)
  found j t := by
    simp only [Sys.goto]
    split
    · exact h4 t
    · exact h.found j t
  array j := by
    simp only [Sys.goto]
    split
    · exact h6
    · exact h.array j

/-- The mutex is taken. -/
theorem inv_lock {mayExec mayCreate : Nat → Bool} {s s' : Sys} (h : Inv mayExec mayCreate s) {i : Nat} {p : Pc} (e : s.lock i p = some s') (h1 : p.holds = true)
    (h2 : p.executes = true → mayExec i = true ∨ mayCreate i = true) (h3 : p.pending = none ∨ p.pending = (s.pc i).pending) (h4 : ∀ t, p.found = some t → t ∈ s.list)
    (h6 : ∀ t ∈ p.array, t ∉ s.freed) : Inv mayExec mayCreate s' := by
  unfold Sys.lock at e
  split at e
  · next hm =>
    simp only [Option.some.injEq] at e
    subst e
    have hn : ∀ j, (s.pc j).holds = false := by
      intro j
      rw [← Bool.not_eq_true, h.mutex j, hm]
      simp
    have := h.pendingLt
    have := h.pendingOne
    constructor
    · intro j
      simp only [Sys.goto]
      by_cases hj : j = i
      · simp [hj, h1]
      · simp [hj, hn j, Ne.symm hj]
    · exact h.nodup
    · exact h.nodupR
    · exact h.listR
    · exact h.listF
    · exact h.removedF
    · exact h.known
    · intro j; simp only [Sys.goto]; grind [h.executes j]
    · intro j t; simp only [Sys.goto]; grind
    · intro j k t; simp only [Sys.goto]; grind
    · intro j t; simp only [Sys.goto]; grind [h.found j t]
    · intro j; simp only [Sys.goto]; grind [h.array j]
  · simp at e

/-- The mutex is given back. -/
theorem inv_unlock {mayExec mayCreate : Nat → Bool} {s : Sys} (h : Inv mayExec mayCreate s) {i : Nat} {p : Pc} (h0 : (s.pc i).holds = true) (h1 : p.holds = false)
    (h2 : p.executes = true → mayExec i = true ∨ mayCreate i = true) (h3 : p.pending = none) (h4 : p.found = none)
    (h6 : ∀ t ∈ p.array, t ∉ s.freed) : Inv mayExec mayCreate (s.unlock i p) := by
  have hm := (h.mutex i).1 h0
  have := h.pendingLt
  have := h.pendingOne
  constructor
  · intro j
    simp only [Sys.unlock, Sys.goto]
    by_cases hj : j = i
    · simp [hj, h1]
    · simp only [hj, if_false]
      have := h.mutex j
      rw [hm] at this
      simp only [Option.some.injEq] at this
      simp only [reduceCtorEq, iff_false]
      rw [this]
      exact Ne.symm hj
  · exact h.nodup
  · exact h.nodupR
  · exact h.listR
  · exact h.listF
  · exact h.removedF
  · exact h.known
  · intro j; simp only [Sys.unlock, Sys.goto]; grind [h.executes j]
  · intro j t; simp only [Sys.unlock, Sys.goto]; grind
  · intro j k t; simp only [Sys.unlock, Sys.goto]; grind
  · intro j t; simp only [Sys.unlock, Sys.goto]; grind [h.found j t]
  · intro j; simp only [Sys.unlock, Sys.goto]; grind [h.array j]

theorem inv_step {mayExec mayCreate : Nat → Bool} (h1 : ∀ i j, mayExec i = true → mayExec j = true ∨ mayCreate j = true → i = j) {s s' : Sys} (h : Inv mayExec mayCreate s) {i : Nat}
    {a : Act} (e : s.step mayExec mayCreate i a = some s') : Inv mayExec mayCreate s' := by
  cases a with
  | find =>
    simp only [Sys.step] at e
    split at e
    · next hp =>
      simp only [Option.some.injEq] at e
      subst e
      exact inv_goto h (by simp [hp, Pc.holds]) (by simp [Pc.executes]) (by simp [Pc.pending]) (by simp [Pc.found]) (by simp [Pc.array])
    · simp at e
  | timers =>
    simp only [Sys.step] at e
    split at e
    · next hp =>
      simp only [Option.some.injEq] at e
      subst e
      exact inv_goto h (by simp [hp, Pc.holds]) (by simp [Pc.executes]) (by simp [Pc.pending]) (by simp [Pc.found]) (by simp [Pc.array])
    · simp at e
  | exec =>
    simp only [Sys.step] at e
    split at e
    · next hp =>
      simp only [Option.some.injEq] at e
      subst e
      exact inv_goto h (by simp [hp, Pc.holds]) (fun _ => .inl hp.2) (by simp [Pc.pending]) (by simp [Pc.found]) (by simp [Pc.array])
    · simp at e
  | new =>
    simp only [Sys.step] at e
    split at e
    · next hp =>
      simp only [Option.some.injEq] at e
      subst e
      have hk := h.known
      have := h.pendingLt
      have := h.pendingOne
      constructor
      · intro j
        simp only [Sys.goto]
        have := h.mutex j
        have := h.mutex i
        by_cases hj : j = i
        · subst hj; simpa [hp, Pc.holds] using this
        · simpa [hj] using ‹((s.pc j).holds = true ↔ s.mutex = some j)›
      · exact h.nodup
      · exact h.nodupR
      · exact h.listR
      · exact h.listF
      · exact h.removedF
      · intro t ht; have := hk t ht; show t < s.next + 1; omega
      · intro j; simp only [Sys.goto]; grind [h.executes j, Pc.executes]
      · intro j t; simp only [Sys.goto]; grind [Pc.pending]
      · intro j k t; simp only [Sys.goto]; grind [Pc.pending]
      · intro j t; simp only [Sys.goto]; grind [h.found j t, Pc.found]
      · intro j; simp only [Sys.goto]; grind [h.array j, Pc.array]
    · simp at e
  | free t =>
    simp only [Sys.step] at e
    split at e
    · next hp =>
      obtain ⟨hi, hx, ht⟩ := hp
      simp only [Option.some.injEq] at e
      subst e
      have hempty : ∀ j, (s.pc j).array = [] := by
        intro j
        have hj : (s.pc j).executes = true → j = i := fun e => (h1 i j hx (h.executes j e)).symm
        by_cases hji : j = i
        · subst hji; simp [hi, Pc.array]
        · have : (s.pc j).executes ≠ true := fun e => hji (hj e)
          revert this
          cases s.pc j <;> simp [Pc.executes, Pc.array]
      constructor
      · exact h.mutex
      · exact h.nodup
      · exact h.nodupR.erase t
      · intro u hu hr; exact h.listR u hu (List.mem_of_mem_erase hr)
      · intro u hu hf
        rcases List.mem_cons.1 hf with rfl | hf
        · exact h.listR u hu ht
        · exact h.listF u hu hf
      · intro u hu hf
        rcases List.mem_cons.1 hf with rfl | hf
        · exact (h.nodupR.not_mem_erase) hu
        · exact h.removedF u (List.mem_of_mem_erase hu) hf
      · intro u hu
        refine h.known u ?_
        rcases hu with hu | hu | hu
        · exact .inl hu
        · exact .inr (.inl (List.mem_of_mem_erase hu))
        · rcases List.mem_cons.1 hu with rfl | hu
          · exact .inr (.inl ht)
          · exact .inr (.inr hu)
      · exact h.executes
      · intro j u hu
        obtain ⟨g1, g2, g3, g4⟩ := h.pendingLt j u hu
        refine ⟨g1, g2, fun hr => g3 (List.mem_of_mem_erase hr), fun hf => ?_⟩
        rcases List.mem_cons.1 hf with rfl | hf
        · exact g3 ht
        · exact g4 hf
      · exact h.pendingOne
      · exact h.found
      · intro j u hu; simp [hempty j] at hu
    · simp at e
  | go c =>
    have hex := h.executes i
    have har := h.array i
    have hfo := h.found i
    simp only [Sys.step] at e
    cases hp : s.pc i with
    | idle => simp [hp] at e
    | findLock =>
      rw [hp] at e
      exact inv_lock h e rfl (by simp [Pc.executes]) (.inl rfl) (by simp [Pc.found]) (by simp [Pc.array])
    | findSearch =>
      simp only [hp] at e
      split at e
      · simp only [Option.some.injEq] at e
        subst e
        exact inv_goto h (by simp [hp, Pc.holds]) (by simp [Pc.executes]) (.inl rfl) (by simp [Pc.found]) (by simp [Pc.array])
      · next t ht =>
        simp only [Option.some.injEq] at e
        subst e
        refine inv_goto h (by simp [hp, Pc.holds]) (by simp [Pc.executes]) (.inl rfl) (fun u hu => ?_) (by simp [Pc.array])
        simp only [Pc.found, Option.some.injEq] at hu
        subst hu
        exact List.mem_of_getElem? ht
    | findAdd t =>
      simp only [hp, Option.some.injEq] at e
      subst e
      exact inv_goto h (by simp [hp, Pc.holds]) (by simp [Pc.executes]) (.inl rfl) (by simp [Pc.found]) (by simp [Pc.array])
    | findUnlock =>
      simp only [hp, Option.some.injEq] at e
      subst e
      exact inv_unlock h (by simp [hp, Pc.holds]) rfl (by simp [Pc.executes]) rfl rfl (by simp [Pc.array])
    | timerLock =>
      rw [hp] at e
      exact inv_lock h e rfl (by simp [Pc.executes]) (.inl rfl) (by simp [Pc.found]) (by simp [Pc.array])
    | timerLoop =>
      simp only [hp, Option.some.injEq] at e
      subst e
      exact inv_goto h (by simp [hp, Pc.holds]) (by simp [Pc.executes]) (.inl rfl) (by simp [Pc.found]) (by simp [Pc.array])
    | timerUnlock =>
      simp only [hp, Option.some.injEq] at e
      subst e
      exact inv_unlock h (by simp [hp, Pc.holds]) rfl (by simp [Pc.executes]) rfl rfl (by simp [Pc.array])
    | newLock t =>
      rw [hp] at e hex
      exact inv_lock h e rfl (fun _ => hex rfl) (.inr (by simp [hp, Pc.pending])) (by simp [Pc.found]) (by simp [Pc.array])
    | newAdd t =>
      simp only [hp, Option.some.injEq] at e
      rw [hp] at hex
      obtain ⟨g1, g2, g3, g4⟩ := h.pendingLt i t (by simp [hp, Pc.pending])
      have hone := fun j => h.pendingOne i j t (by simp [hp, Pc.pending])
      have hk := inv_goto h (i := i) (p := .newUnlock t) (by simp [hp, Pc.holds]) (fun _ => hex rfl) (.inl rfl) (by simp [Pc.found])
        (by simpa [Pc.array] using g4)
      subst e
      have hpl := h.pendingLt
      have hpe := hk.pendingLt
      constructor
      · exact hk.mutex
      · show (s.list ++ [t]).Nodup
        have := h.nodup
        grind
      · exact h.nodupR
      · intro u hu
        rcases List.mem_append.1 hu with hu | hu
        · exact h.listR u hu
        · simp only [List.mem_singleton] at hu; subst hu; exact g3
      · intro u hu
        rcases List.mem_append.1 hu with hu | hu
        · exact h.listF u hu
        · simp only [List.mem_singleton] at hu; subst hu; exact g4
      · exact h.removedF
      · intro u hu
        rcases hu with hu | hu
        · rcases List.mem_append.1 hu with hu | hu
          · exact h.known u (.inl hu)
          · simp only [List.mem_singleton] at hu; subst hu; exact g1
        · exact h.known u (.inr hu)
      · exact hk.executes
      · intro j u hu
        obtain ⟨k1, k2, k3, k4⟩ := hk.pendingLt j u hu
        refine ⟨k1, fun hm => ?_, k3, k4⟩
        rcases List.mem_append.1 hm with hm | hm
        · exact k2 hm
        · simp only [List.mem_singleton] at hm
          subst hm
          simp only [Sys.goto] at hu
          split at hu
          · simp [Pc.pending] at hu
          · next hj => exact hj (hone j hu).symm
      · exact hk.pendingOne
      · exact fun j u hu => List.mem_append_left _ (hk.found j u hu)
      · exact hk.array
    | newUnlock t =>
      rw [hp] at hex har
      simp only [hp, Option.some.injEq] at e
      subst e
      exact inv_unlock h (by simp [hp, Pc.holds]) rfl (fun _ => hex rfl) rfl rfl har
    | newRead t =>
      rw [hp] at hex har
      simp only [hp, Option.some.injEq] at e
      subst e
      split
      · exact inv_goto h (by simp [hp, Pc.holds]) (by simp [Pc.executes]) (.inl rfl) (by simp [Pc.found]) (by simp [Pc.array])
      · exact inv_goto h (by simp [hp, Pc.holds]) (fun _ => hex rfl) (.inl rfl) (by simp [Pc.found]) har
    | firstAdd t =>
      simp only [hp, Option.some.injEq] at e
      subst e
      exact inv_goto h (by simp [hp, Pc.holds]) (by simp [Pc.executes]) (.inl rfl) (by simp [Pc.found]) (by simp [Pc.array])
    | execLock =>
      rw [hp] at e hex
      exact inv_lock h e rfl (fun _ => hex rfl) (.inl rfl) (by simp [Pc.found]) (by simp [Pc.array])
    | execCopy =>
      rw [hp] at hex
      simp only [hp, Option.some.injEq] at e
      subst e
      exact inv_goto h (by simp [hp, Pc.holds]) (fun _ => hex rfl) (.inl rfl) (by simp [Pc.found]) h.listF
    | execUnlock a =>
      rw [hp] at hex har
      simp only [hp, Option.some.injEq] at e
      subst e
      exact inv_unlock h (by simp [hp, Pc.holds]) rfl (fun _ => hex rfl) rfl rfl har
    | execGet a =>
      rw [hp] at hex har
      cases a with
      | nil =>
        simp only [hp, Option.some.injEq] at e
        subst e
        exact inv_goto h (by simp [hp, Pc.holds]) (by simp [Pc.executes]) (.inl rfl) (by simp [Pc.found]) (by simp [Pc.array])
      | cons t a =>
        simp only [hp, Option.some.injEq] at e
        subst e
        split
        · exact inv_goto h (by simp [hp, Pc.holds]) (fun _ => hex rfl) (.inl rfl) (by simp [Pc.found])
            (fun u hu => har u (List.mem_cons_of_mem _ hu))
        · exact inv_goto h (by simp [hp, Pc.holds]) (fun _ => hex rfl) (.inl rfl) (by simp [Pc.found]) har
    | execRun a =>
      rw [hp] at hex har
      simp only [hp, Option.some.injEq] at e
      subst e
      split
      · exact inv_goto h (by simp [hp, Pc.holds]) (fun _ => hex rfl) (.inl rfl) (by simp [Pc.found]) har
      · exact inv_goto h (by simp [hp, Pc.holds]) (fun _ => hex rfl) (.inl rfl) (by simp [Pc.found]) har
    | killLock a =>
      rw [hp] at e hex har
      exact inv_lock h e rfl (fun _ => hex rfl) (.inl rfl) (by simp [Pc.found]) har
    | killRemove a =>
      rw [hp] at hex har
      have hk := inv_goto h (i := i) (p := .killUnlock a) (by simp [hp, Pc.holds]) (fun _ => hex rfl) (.inl rfl) (by simp [Pc.found]) har
      have hm := (h.mutex i).1 (by simp [hp, Pc.holds])
      simp only [hp] at e
      split at e
      · next t ht =>
        split at e
        · next hin =>
          simp only [Option.some.injEq] at e
          subst e
          constructor
          · exact hk.mutex
          · exact h.nodup.erase t
          · exact List.nodup_cons.2 ⟨h.listR t hin, h.nodupR⟩
          · intro u hu hr
            rcases List.mem_cons.1 hr with rfl | hr
            · exact h.nodup.not_mem_erase hu
            · exact h.listR u (List.mem_of_mem_erase hu) hr
          · exact fun u hu => h.listF u (List.mem_of_mem_erase hu)
          · intro u hu
            rcases List.mem_cons.1 hu with rfl | hu
            · exact h.listF u hin
            · exact h.removedF u hu
          · intro u hu
            refine h.known u ?_
            rcases hu with hu | hu | hu
            · exact .inl (List.mem_of_mem_erase hu)
            · rcases List.mem_cons.1 hu with rfl | hu
              · exact .inl hin
              · exact .inr (.inl hu)
            · exact .inr (.inr hu)
          · exact hk.executes
          · intro j u hu
            obtain ⟨k1, k2, k3, k4⟩ := hk.pendingLt j u hu
            refine ⟨k1, fun hm => k2 (List.mem_of_mem_erase hm), fun hr => ?_, k4⟩
            rcases List.mem_cons.1 hr with rfl | hr
            · exact k2 hin
            · exact k3 hr
          · exact hk.pendingOne
          · intro j u hu
            exfalso
            simp only [Sys.goto] at hu
            split at hu
            · simp [Pc.found] at hu
            · next hj =>
              have : (s.pc j).holds = true := by
                revert hu
                cases s.pc j <;> simp [Pc.found, Pc.holds]
              rw [h.mutex j, hm] at this
              simp only [Option.some.injEq] at this
              exact hj this.symm
          · exact hk.array
        · simp only [Option.some.injEq] at e
          subst e
          exact hk
      · simp only [Option.some.injEq] at e
        subst e
        exact hk
    | killUnlock a =>
      rw [hp] at hex har
      simp only [hp, Option.some.injEq] at e
      subst e
      exact inv_unlock h (by simp [hp, Pc.holds]) rfl (fun _ => hex rfl) rfl rfl har

theorem inv_reach {mayExec mayCreate : Nat → Bool} (h1 : ∀ i j, mayExec i = true → mayExec j = true ∨ mayCreate j = true → i = j) {s : Sys}
    (h : Reach mayExec mayCreate s) :
    Inv mayExec mayCreate s := by
  induction h with
  | init => exact inv_init mayExec mayCreate
  | step i a _ e ih => exact inv_step h1 ih e

/-- Who holds the mutex is the same before and after, up to the thread that moves. -/
theorem mutex_step {mayExec mayCreate : Nat → Bool} {s s' : Sys} (h : ∀ i, (s.pc i).holds = true ↔ s.mutex = some i) {i : Nat} {a : Act}
    (e : s.step mayExec mayCreate i a = some s') : ∀ j, (s'.pc j).holds = true ↔ s'.mutex = some j := by
  have hi := h i
  intro j
  have hj := h j
  cases a with
  | go c =>
    simp only [Sys.step] at e
    cases hp : s.pc i
    case newAdd t =>
      simp only [hp, Option.some.injEq] at e
      subst e
      simp only [Sys.goto]
      grind [Pc.holds]
    all_goals simp only [hp] at e <;> grind [Sys.lock, Sys.unlock, Sys.goto, Pc.holds]
  | _ => simp only [Sys.step] at e <;> grind [Sys.goto, Pc.holds]

/-- **C102, the mutex.** Whatever the threads do, the thread between `osip_mutex_lock` and `osip_mutex_unlock` is the one that has the
mutex, so there is never more than one. -/
theorem c102_mutex {mayExec mayCreate : Nat → Bool} {s : Sys} (h : Reach mayExec mayCreate s) (i : Nat) :
    (s.pc i).holds = true ↔ s.mutex = some i := by
  induction h generalizing i with
  | init => simp [Pc.holds]
  | step i a _ e ih => exact mutex_step ih e _

/-- **C102, no deadlock.** A thread inside a function goes on, or it waits for another one that has the mutex and goes on. -/
theorem c102_no_deadlock {mayExec mayCreate : Nat → Bool} {s : Sys} (h : Reach mayExec mayCreate s) (i : Nat) (hi : s.pc i ≠ .idle) (c : Nat) :
    (s.step mayExec mayCreate i (.go c)).isSome = true ∨ ∃ j, j ≠ i ∧ s.mutex = some j ∧ (s.step mayExec mayCreate j (.go c)).isSome = true := by
  have hm := c102_mutex h
  have hold : ∀ j, (s.pc j).holds = true → (s.step mayExec mayCreate j (.go c)).isSome = true := by
    intro j
    simp only [Sys.step]
    cases hp : s.pc j <;> simp [Pc.holds] <;> grind
  by_cases hx : (s.step mayExec mayCreate i (.go c)).isSome = true
  · exact .inl hx
  · refine .inr ?_
    have hb : s.mutex ≠ none := by
      intro hn
      apply hx
      simp only [Sys.step]
      cases hp : s.pc i <;> simp [Sys.lock, hn] <;> grind
    obtain ⟨j, hj⟩ := Option.ne_none_iff_exists'.1 hb
    have hh := hold j ((hm j).2 hj)
    refine ⟨j, ?_, hj, hh⟩
    rintro rfl
    exact hx hh

/-- **C102, the list.** Only the thread that has the mutex changes the list. -/
theorem c102_list {mayExec mayCreate : Nat → Bool} {s s' : Sys} (h : Reach mayExec mayCreate s) {i : Nat} {a : Act}
    (e : s.step mayExec mayCreate i a = some s') (hl : s'.list ≠ s.list) : s.mutex = some i := by
  rw [← c102_mutex h i]
  revert hl
  cases a with
  | go c =>
    simp only [Sys.step] at e
    cases hp : s.pc i <;> simp only [hp] at e <;> grind [Sys.lock, Sys.unlock, Sys.goto, Pc.holds]
  | _ => simp only [Sys.step] at e <;> grind [Sys.goto, Pc.holds]

/-- **C102, the transactions.** If one thread creates the transactions, executes their events and frees them, and the other threads only
deliver events to transactions and look at the timers, no statement of any thread reads a freed transaction.
Missing: `c102_violated`. -/
theorem c102_no_freed_partial {mayExec mayCreate : Nat → Bool} (h1 : ∀ i j, mayExec i = true → mayExec j = true ∨ mayCreate j = true → i = j)
    {s s' : Sys} (h : Reach mayExec mayCreate s) {i : Nat} {a : Act} (e : s.step mayExec mayCreate i a = some s') : ∀ t ∈ s.reads i a, t ∉ s.freed := by
  have hv := inv_reach h1 h
  intro t ht
  cases a with
  | free u =>
    simp only [Sys.reads, List.mem_singleton] at ht
    subst ht
    simp only [Sys.step] at e
    split at e
    · next hp => exact hv.removedF t hp.2.2
    · simp at e
  | go c =>
    have har := hv.array i
    have hfo := hv.found i
    simp only [Sys.reads] at ht
    cases hp : s.pc i <;> simp only [hp] at ht har hfo
    case findSearch => exact hv.listF t ht
    case timerLoop => exact hv.listF t ht
    case findAdd u =>
      simp only [List.mem_singleton] at ht
      subst ht
      exact hv.listF t (hfo t rfl)
    case newRead u => simp only [List.mem_singleton] at ht; subst ht; exact har t (by simp [Pc.array])
    case firstAdd u => simp only [List.mem_singleton] at ht; subst ht; exact har t (by simp [Pc.array])
    case execGet a =>
      cases a with
      | nil => simp at ht
      | cons u a => simp only [List.mem_singleton] at ht; subst ht; exact har t (by simp [Pc.array])
    case execRun a =>
      cases a with
      | nil => simp at ht
      | cons u a => simp only [List.mem_singleton] at ht; subst ht; exact har t (by simp [Pc.array])
    case killRemove a =>
      cases a with
      | nil => simp at ht
      | cons u a =>
        rcases List.mem_cons.1 ht with rfl | ht
        · exact har t (by simp [Pc.array])
        · exact hv.listF t ht
    all_goals simp at ht
  | _ => simp [Sys.reads] at ht

/-- The states along a schedule. -/
def run (mayExec mayCreate : Nat → Bool) : List (Nat × Act) → Sys → Option Sys
  | [], s => some s
  | (i, a) :: w, s => (s.step mayExec mayCreate i a).bind (run mayExec mayCreate w)

theorem run_reach {mayExec mayCreate : Nat → Bool} (w : List (Nat × Act)) : ∀ {s s' : Sys}, Reach mayExec mayCreate s →
    run mayExec mayCreate w s = some s' → Reach mayExec mayCreate s' := by
  induction w with
  | nil => intro s s' h e; simp only [run, Option.some.injEq] at e; exact e ▸ h
  | cons p w ih =>
    intro s s' h e
    obtain ⟨i, a⟩ := p
    simp only [run, Option.bind_eq_some_iff] at e
    obtain ⟨t, e1, e2⟩ := e
    exact ih (.step i a h e1) e2

/-- A thread makes transaction 0 and adds it to the list. -/
def made (i : Nat) : List (Nat × Act) := [(i, .new), (i, .go 0), (i, .go 0), (i, .go 0)]

/-- Thread 2 delivers an event to transaction 0. -/
def delivered : List (Nat × Act) := [(2, .find), (2, .go 0), (2, .go 0), (2, .go 0), (2, .go 0)]

/-- Thread 0 goes through the list, transaction 0 ends, is taken out of the list and freed. -/
def killed : List (Nat × Act) := [(0, .exec), (0, .go 0), (0, .go 0), (0, .go 0), (0, .go 1), (0, .go 1), (0, .go 0), (0, .go 0), (0, .go 0),
  (0, .go 0), (0, .go 0), (0, .free 0)]

/-- Two threads that execute events: thread 1 has copied the list, then thread 0 frees the transaction. -/
def twoExecutors : List (Nat × Act) := made 1 ++ [(1, .go 0), (1, .exec), (1, .go 0), (1, .go 0), (1, .go 0)] ++ killed

/-- Thread 1 is in `osip_create_transaction`; before it reads the number of the transaction, an event is delivered and executed, and
the transaction is freed. -/
def earlyEnd : List (Nat × Act) := made 1 ++ delivered ++ killed

/-- A freed transaction is read by the next statement of thread 1, and nothing stops it. -/
def usesFreed (mayExec mayCreate : Nat → Bool) (s : Sys) : Bool :=
  (s.step mayExec mayCreate 1 (.go 0)).isSome && (s.reads 1 (.go 0)).any (fun t => s.freed.contains t)

theorem usesFreed_spec {mayExec mayCreate : Nat → Bool} {s : Sys} (h : usesFreed mayExec mayCreate s = true) :
    ∃ (s' : Sys) (t : Nat), s.step mayExec mayCreate 1 (.go 0) = some s' ∧ t ∈ s.reads 1 (.go 0) ∧ t ∈ s.freed := by
  simp only [usesFreed, Bool.and_eq_true, Option.isSome_iff_exists, List.any_eq_true, List.contains_iff_mem] at h
  obtain ⟨⟨s', e⟩, t, h1, h2⟩ := h
  exact ⟨s', t, e, h1, h2⟩

/-- **C102 fails** if two threads execute events, and if another thread than the executing one creates transactions: the mutex is
given back before `osip_create_transaction` uses the transaction. -/
theorem c102_violated :
    (∃ (s s' : Sys) (t : Nat), Reach (fun _ => true) (fun _ => true) s ∧ s.step (fun _ => true) (fun _ => true) 1 (.go 0) = some s' ∧
      t ∈ s.reads 1 (.go 0) ∧ t ∈ s.freed) ∧
    (∃ (s s' : Sys) (t : Nat), Reach (fun i => i == 0) (fun i => i == 1) s ∧ s.step (fun i => i == 0) (fun i => i == 1) 1 (.go 0) = some s' ∧
      s.pc 1 = .newRead t ∧ t ∈ s.reads 1 (.go 0) ∧ t ∈ s.freed) := by
  have key : ∀ (mayExec mayCreate : Nat → Bool) (w : List (Nat × Act)),
      (run mayExec mayCreate w {}).any (usesFreed mayExec mayCreate) = true → ∃ (s s' : Sys) (t : Nat), run mayExec mayCreate w {} = some s ∧
        Reach mayExec mayCreate s ∧ s.step mayExec mayCreate 1 (.go 0) = some s' ∧ t ∈ s.reads 1 (.go 0) ∧ t ∈ s.freed := by
    intro mayExec mayCreate w h
    cases hr : run mayExec mayCreate w {} with
    | none => simp [hr] at h
    | some s =>
      simp only [hr, Option.any_some] at h
      obtain ⟨s', t, h1, h2, h3⟩ := usesFreed_spec h
      exact ⟨s, s', t, rfl, run_reach w .init hr, h1, h2, h3⟩
  obtain ⟨s, s', t, _, h1⟩ := key (fun _ => true) (fun _ => true) twoExecutors (by decide +kernel)
  refine ⟨⟨s, s', t, h1⟩, ?_⟩
  obtain ⟨s, s', t, h0, h1, h2, h3, h4⟩ := key (fun i => i == 0) (fun i => i == 1) earlyEnd (by decide +kernel)
  have hp : ((run (fun i => i == 0) (fun i => i == 1) earlyEnd {}).any fun s => s.pc 1 == .newRead 0) = true := by decide +kernel
  simp only [h0, Option.any_some, beq_iff_eq] at hp
  have ht : t = 0 := by simpa [Sys.reads, hp] using h3
  exact ⟨s, s', t, h1, h2, ht ▸ hp, h3, h4⟩

/-- The rules of `c102_no_freed_partial` allow a transaction to be made, to get an event from another thread and to be freed. -/
example : (run (fun i => i == 0) (fun i => i == 0) (made 0 ++ [(0, .go 1), (0, .go 0)] ++ delivered ++ killed) {}).map
    (fun s => (s.list, s.removed, s.freed, s.mutex)) = some ([], [], [0], none) := by decide +kernel

/-- A thread waits as long as another one has the mutex. -/
example : ((run (fun _ => true) (fun _ => true) (made 1 ++ [(1, .go 0), (2, .find), (2, .go 0), (1, .timers)]) {}).bind
      (·.step (fun _ => true) (fun _ => true) 1 (.go 0))).isNone = true ∧
    ((run (fun _ => true) (fun _ => true) (made 1 ++ [(1, .go 0), (2, .find), (2, .go 0), (1, .timers)]) {}).bind
      (·.step (fun _ => true) (fun _ => true) 2 (.go 0))).isSome = true := by
  decide +kernel

end Osip.Threads
