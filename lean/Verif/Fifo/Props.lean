import Verif.Fifo.Model

/-!
# C24: the event queue under every schedule
-/

set_option autoImplicit false

namespace Osip

/-! ## Specification -/

/-- A sequential queue going through a history: elements are put at the back or at the front, and
only the first element can be taken. `none` if the history is impossible for such a queue. -/
def replay : List Nat → List FEv → Option (List Nat)
  | q, [] => some q
  | q, .put _ el fr :: t => replay (if fr then el :: q else q ++ [el]) t
  | x :: q, .took _ (some y) :: t => if x = y then replay q t else none
  | [], .took _ (some _) :: _ => none
  | _, .took _ none :: _ => none
  | q, _ :: t => replay q t

/-- The elements put, in order. -/
def puts (t : List FEv) : List Nat :=
  t.filterMap fun e => match e with | .put _ el _ => some el | _ => none

/-- The elements taken out, in order. -/
def takes (t : List FEv) : List Nat :=
  t.filterMap fun e => match e with | .took _ el => el | _ => none

/-- The results of the reading calls of thread `i` which passed the semaphore. -/
def returned (i : Nat) (t : List FEv) : List (Option Nat) :=
  t.filterMap fun e => match e with | .ret j el => if j = i then some el else none | _ => none

/-- What thread `i` took out of the list. -/
def takenBy (i : Nat) (t : List FEv) : List (Option Nat) :=
  t.filterMap fun e => match e with | .took j el => if j = i then some el else none | _ => none

/-- Memory is always available. -/
def MemoryOk (a : Act) : Prop := a ≠ .go false

/-- Between `osip_mutex_lock` and `osip_mutex_unlock`. -/
def Pc.locked : Pc → Bool
  | .addIns _ _ | .addState | .addPost | .addUnlock | .getTest | .getRead | .getRemove _
  | .getSize _ | .getUnlock _ | .sizeRead | .sizeUnlock _ => true
  | _ => false

/-! ## Invariant -/

/-- Passed the semaphore, element not yet removed. -/
def Pc.owed : Pc → Bool
  | .getLock | .getTest | .getRead | .getRemove _ => true
  | _ => false

/-- Element inserted, semaphore not yet posted. -/
def Pc.unposted : Pc → Bool
  | .addState | .addPost => true
  | _ => false

/-- The place of the thread which holds the mutex. -/
def Fifo.holder (f : Fifo) : Option Pc := f.mutex.bind (f.threads[·]?)

/-- `ff->state` agrees with the list. -/
def Fifo.stOk (f : Fifo) : Prop := f.st = .empty ↔ f.queue = []

/-- What holds while the mutex is held. -/
def Fifo.holderOk (f : Fifo) : Prop :=
  match f.mutex with
  | none => f.stOk
  | some i => match f.threads[i]? with
    | none => False
    | some pc => match pc with
      | .addState => f.queue ≠ []
      | .addPost => f.st = .ok ∧ f.queue ≠ []
      | .getRead => f.stOk ∧ f.queue ≠ []
      | .getRemove el => f.stOk ∧ f.queue ≠ [] ∧ el = f.queue.head?
      | .getSize el => el.isSome
      | .getUnlock el => f.stOk ∧ el.isSome
      | .addIns _ _ | .addUnlock | .getTest | .sizeRead | .sizeUnlock _ => f.stOk
      | _ => False

/-- What thread `i` at `pc` took and did not return yet. -/
def Pc.pending : Pc → List (Option Nat)
  | .getSize el | .getUnlock el => [el]
  | _ => []

structure Fifo.Inv (f : Fifo) : Prop where
  excl : ∀ i pc, f.threads[i]? = some pc → pc.locked = true → f.mutex = some i
  hold : f.holderOk
  count : f.queue.length = f.sem + f.threads.countP Pc.owed + f.threads.countP Pc.unposted
  rep : replay [] f.trace = some f.queue
  own : ∀ i pc, f.threads[i]? = some pc → takenBy i f.trace = returned i f.trace ++ pc.pending
  fresh : ∀ i, f.threads[i]? = none → takenBy i f.trace = returned i f.trace
  rets : ∀ i el, .ret i el ∈ f.trace → el.isSome

theorem countP_set_add {α : Type} (p : α → Bool) (l : List α) {i : Nat} {x : α} (y : α)
    (h : l[i]? = some x) :
    (l.set i y).countP p + (if p x then 1 else 0) = l.countP p + (if p y then 1 else 0) := by
  induction l generalizing i with
  | nil => simp at h
  | cons a l ih =>
    cases i with
    | zero =>
      simp at h; subst h
      simp only [List.set_cons_zero, List.countP_cons]
      omega
    | succ i =>
      simp at h
      have := ih h
      simp only [List.set_cons_succ, List.countP_cons]
      omega

theorem set_get_self {α : Type} {l : List α} {i : Nat} {x : α} (y : α) (h : l[i]? = some x) :
    (l.set i y)[i]? = some y := by
  have : i < l.length := by
    rcases Nat.lt_or_ge i l.length with h' | h'
    · exact h'
    · rw [List.getElem?_eq_none h'] at h; cases h
  simp [this]

theorem set_get_ne {α : Type} (l : List α) {i j : Nat} (y : α) (h : j ≠ i) :
    (l.set i y)[j]? = l[j]? := by
  rw [List.getElem?_set_ne (Ne.symm h)]

theorem replay_append (q : List Nat) (a b : List FEv) :
    replay q (a ++ b) = (replay q a).bind (fun q => replay q b) := by
  induction a generalizing q with
  | nil => simp [replay]
  | cons e a ih =>
    cases e with
    | took i el =>
      cases el with
      | none => cases q <;> simp [replay]
      | some y =>
        cases q with
        | nil => simp [replay]
        | cons x q => simp only [List.cons_append, replay]; split <;> simp [ih]
    | put i el fr => simp [replay, ih]
    | ret i el => cases q <;> simp [replay, ih]
    | refused i => cases q <;> simp [replay, ih]
    | added i => cases q <;> simp [replay, ih]
    | sized i n => cases q <;> simp [replay, ih]

@[simp] theorem takenBy_append (i : Nat) (a b : List FEv) :
    takenBy i (a ++ b) = takenBy i a ++ takenBy i b := by simp [takenBy]
@[simp] theorem returned_append (i : Nat) (a b : List FEv) :
    returned i (a ++ b) = returned i a ++ returned i b := by simp [returned]

/-- Preservation for a step in which thread `i` goes from `pc` to `pc'`. The remaining obligations
are local. -/
theorem inv_local {f f' : Fifo} {i : Nat} {pc pc' : Pc} (hi : f.Inv) (hpc : f.threads[i]? = some pc)
    (hth : f'.threads = f.threads.set i pc') {es : List FEv} (htr : f'.trace = f.trace ++ es)
    (hmx : (pc'.locked = true → f'.mutex = some i) ∧
      (∀ j, j ≠ i → f.mutex = some j → f'.mutex = some j))
    (hhold : f'.holderOk)
    (hcount : f'.queue.length + f.sem + (if pc.owed then 1 else 0) + (if pc.unposted then 1 else 0) =
      f.queue.length + f'.sem + (if pc'.owed then 1 else 0) + (if pc'.unposted then 1 else 0))
    (hrep : replay f.queue es = some f'.queue)
    (hown : pc.pending ++ takenBy i es = returned i es ++ pc'.pending)
    (hother : ∀ j, j ≠ i → takenBy j es = [] ∧ returned j es = [])
    (hret : ∀ j el, FEv.ret j el ∈ es → el.isSome) : f'.Inv := by
  have h1 := countP_set_add Pc.owed f.threads pc' hpc
  have h2 := countP_set_add Pc.unposted f.threads pc' hpc
  refine ⟨?_, hhold, ?_, ?_, ?_, ?_, ?_⟩
  · intro j q hj hl
    rw [hth] at hj
    by_cases hji : j = i
    · subst hji
      rw [set_get_self _ hpc] at hj
      cases hj
      exact hmx.1 hl
    · rw [set_get_ne _ _ hji] at hj
      exact hmx.2 j hji (hi.excl j q hj hl)
  · have := hi.count
    rw [hth]
    omega
  · rw [htr, replay_append, hi.rep]
    exact hrep
  · intro j q hj
    rw [hth] at hj
    rw [htr]
    by_cases hji : j = i
    · subst hji
      rw [set_get_self _ hpc] at hj
      cases hj
      have := hi.own j pc hpc
      simp only [takenBy_append, returned_append, this, List.append_assoc]
      rw [hown]
    · rw [set_get_ne _ _ hji] at hj
      simp [hi.own j q hj, hother j hji]
  · intro j hj
    rw [hth] at hj
    rw [htr]
    have hji : j ≠ i := by
      rintro rfl
      rw [set_get_self _ hpc] at hj
      cases hj
    rw [set_get_ne _ _ hji] at hj
    simp [hi.fresh j hj, hother j hji]
  · intro j el hm
    rw [htr] at hm
    rcases List.mem_append.1 hm with hm | hm
    · exact hi.rets j el hm
    · exact hret j el hm

/-- A thread outside the critical section is not the holder. -/
theorem Fifo.Inv.not_holder {f : Fifo} (hi : f.Inv) {i : Nat} {pc : Pc}
    (hpc : f.threads[i]? = some pc) (hl : pc.locked = false) : f.mutex ≠ some i := by
  intro hm
  have := hi.hold
  unfold Fifo.holderOk at this
  simp only [hm, hpc] at this
  cases pc <;> simp_all [Pc.locked]

/-- `holderOk` is not affected by a step of a thread which does not hold the mutex. -/
theorem holderOk_outside {f f' : Fifo} {i : Nat} {pc' : Pc} (hi : f.Inv)
    (hm : f.mutex ≠ some i) (hth : f'.threads = f.threads.set i pc') (h1 : f'.mutex = f.mutex)
    (h2 : f'.queue = f.queue) (h3 : f'.st = f.st) : f'.holderOk := by
  have := hi.hold
  unfold Fifo.holderOk Fifo.stOk at *
  rw [h1, h2, h3, hth]
  cases hmx : f.mutex with
  | none => simpa [hmx] using this
  | some j =>
    have hji : j ≠ i := fun h => hm (by rw [hmx, h])
    rw [hmx] at this
    simpa [set_get_ne _ _ hji] using this

/-- Discharges the routine obligations of `inv_local`. -/
macro "fifo_side" : tactic => `(tactic| first
  | rfl
  | (simp [Fifo.at_, Fifo.log, Fifo.unlock]; done)
  | (simp [Fifo.at_, Fifo.log, Fifo.unlock, Pc.owed, Pc.unposted]; done)
  | (simp [Fifo.at_, Fifo.log, Fifo.unlock, Pc.owed, Pc.unposted]; omega)
  | (simp [replay, Fifo.at_, Fifo.log, Fifo.unlock]; done)
  | (simp [Pc.pending, takenBy, returned]; done)
  | (simp [Pc.locked]; done)
  | (intro j hj; simp [takenBy, returned, Ne.symm hj]; done))

theorem inv_go {f f' : Fifo} {i : Nat} {pc : Pc} (hi : f.Inv) (hpc : f.threads[i]? = some pc)
    (hg : f.go i true pc = some f') : f'.Inv := by
  have hh := hi.hold
  have hself := fun pc' => set_get_self pc' hpc
  have hlk : pc.locked = true → f.mutex = some i := hi.excl i pc hpc
  have hnl : pc.locked = false → f.mutex ≠ some i := hi.not_holder hpc
  cases pc
  all_goals simp only [Pc.locked, forall_const, reduceCtorEq, false_implies, Bool.false_eq_true,
    Bool.true_eq_false] at hlk hnl
  all_goals simp only [Fifo.go, Fifo.lock, Option.some.injEq, if_true, reduceCtorEq,
    Option.map_eq_some_iff] at hg
  case addLock el fr =>
    obtain ⟨g, hg, rfl⟩ := hg
    split at hg
    · next hm =>
      cases hg
      refine inv_local (es := []) (pc' := .addIns el fr) hi hpc rfl (by simp [Fifo.at_])
        ⟨fun _ => rfl, fun j _ hj => by rw [hm] at hj; cases hj⟩ ?_ (by simp [Fifo.at_, Pc.owed, Pc.unposted])
        (by simp [replay, Fifo.at_]) (by simp [Pc.pending, takenBy, returned]) (by simp [takenBy, returned])
        (by simp)
      simpa [Fifo.holderOk, Fifo.at_, hself, Fifo.stOk, hm] using hh
    · cases hg
  case addIns el fr =>
    subst hg
    simp only [Fifo.holderOk, hlk, hpc] at hh
    refine inv_local (es := [.put i el fr]) (pc' := .addState) hi hpc rfl rfl
      ⟨fun _ => hlk, fun j hj h => h⟩ ?_ ?_ ?_ ?_ ?_ ?_
    all_goals try fifo_side
    · simp only [Fifo.holderOk, Fifo.at_, Fifo.log, hlk, hself]
      cases fr <;> simp
    · cases fr <;> simp [Fifo.at_, Fifo.log, Pc.owed, Pc.unposted] <;> omega
  case addState =>
    subst hg
    simp only [Fifo.holderOk, hlk, hpc] at hh
    refine inv_local (es := []) (pc' := .addPost) hi hpc rfl (by fifo_side)
      ⟨fun _ => hlk, fun j hj h => h⟩ ?_ ?_ ?_ ?_ ?_ ?_
    all_goals try fifo_side
    simp only [Fifo.holderOk, Fifo.at_, hlk, hself]
    exact ⟨trivial, hh⟩
  case addPost =>
    subst hg
    simp only [Fifo.holderOk, hlk, hpc] at hh
    refine inv_local (es := []) (pc' := .addUnlock) hi hpc rfl (by fifo_side)
      ⟨fun _ => hlk, fun j hj h => h⟩ ?_ ?_ ?_ ?_ ?_ ?_
    all_goals try fifo_side
    simp only [Fifo.holderOk, Fifo.at_, hlk, hself, Fifo.stOk, hh.1, hh.2, reduceCtorEq]
  case addUnlock =>
    subst hg
    simp only [Fifo.holderOk, hlk, hpc] at hh
    refine inv_local (es := [.added i]) (pc' := .idle) hi hpc rfl rfl
      ⟨by simp [Pc.locked], fun j hj h => by rw [hlk] at h; cases h; exact absurd rfl hj⟩ ?_ ?_ ?_ ?_ ?_ ?_
    all_goals try fifo_side
    simpa only [Fifo.holderOk, Fifo.at_, Fifo.log, Fifo.unlock, Fifo.stOk] using hh
  case getWait =>
    split at hg
    · cases hg
    · cases hg
      refine inv_local (es := []) (pc' := .getLock) hi hpc rfl (by fifo_side)
        ⟨by simp [Pc.locked], fun j hj h => h⟩ (holderOk_outside hi hnl rfl rfl rfl rfl) ?_ ?_ ?_ ?_ ?_
      all_goals try fifo_side
  case tryWait =>
    split at hg
    · cases hg
      refine inv_local (es := [.refused i]) (pc' := .idle) hi hpc rfl (by fifo_side)
        ⟨by simp [Pc.locked], fun j hj h => h⟩ (holderOk_outside hi hnl rfl rfl rfl rfl) ?_ ?_ ?_ ?_ ?_
      all_goals try fifo_side
    · cases hg
      refine inv_local (es := []) (pc' := .getLock) hi hpc rfl (by fifo_side)
        ⟨by simp [Pc.locked], fun j hj h => h⟩ (holderOk_outside hi hnl rfl rfl rfl rfl) ?_ ?_ ?_ ?_ ?_
      all_goals try fifo_side
  case getLock =>
    obtain ⟨g, hg, rfl⟩ := hg
    split at hg
    · next hm =>
      cases hg
      refine inv_local (es := []) (pc' := .getTest) hi hpc rfl (by fifo_side)
        ⟨fun _ => rfl, fun j _ hj => by rw [hm] at hj; cases hj⟩ ?_ ?_ ?_ ?_ ?_ ?_
      all_goals try fifo_side
      simpa [Fifo.holderOk, Fifo.at_, hself, Fifo.stOk, hm] using hh
    · cases hg
  case getTest =>
    simp only [Fifo.holderOk, hlk, hpc] at hh
    have hne : f.queue ≠ [] := by
      intro he
      have hc := hi.count
      have : 0 < f.threads.countP Pc.owed :=
        List.countP_pos_iff.2 ⟨.getTest, List.mem_of_getElem? hpc, rfl⟩
      rw [he] at hc
      simp only [List.length_nil] at hc
      omega
    have hst : f.st ≠ .empty := fun h => hne (hh.1 h)
    rw [if_pos hst] at hg
    cases hg
    refine inv_local (es := []) (pc' := .getRead) hi hpc rfl (by fifo_side)
      ⟨fun _ => hlk, fun j hj h => h⟩ ?_ ?_ ?_ ?_ ?_ ?_
    all_goals try fifo_side
    simp only [Fifo.holderOk, Fifo.at_, hlk, hself]
    exact ⟨hh, hne⟩
  case getRead =>
    subst hg
    simp only [Fifo.holderOk, hlk, hpc] at hh
    refine inv_local (es := []) (pc' := .getRemove f.queue.head?) hi hpc rfl (by fifo_side)
      ⟨fun _ => hlk, fun j hj h => h⟩ ?_ ?_ ?_ ?_ ?_ ?_
    all_goals try fifo_side
    simp only [Fifo.holderOk, Fifo.at_, hlk, hself]
    exact ⟨hh.1, hh.2, trivial⟩
  case getRemove el =>
    subst hg
    simp only [Fifo.holderOk, hlk, hpc] at hh
    obtain ⟨h1, h2, h3⟩ := hh
    obtain ⟨x, q, hq⟩ := List.exists_cons_of_ne_nil h2
    rw [hq, List.head?_cons] at h3
    subst h3
    refine inv_local (es := [.took i (some x)]) (pc' := .getSize (some x)) hi hpc rfl rfl
      ⟨fun _ => hlk, fun j hj h => h⟩ ?_ ?_ ?_ ?_ ?_ ?_
    all_goals try fifo_side
    · simp only [Fifo.holderOk, Fifo.at_, Fifo.log, hlk, hself, Option.isSome_some]
    · simp [Fifo.at_, Fifo.log, Pc.owed, Pc.unposted, hq]; omega
    · simp [replay, Fifo.at_, Fifo.log, hq]
  case getSize el =>
    subst hg
    simp only [Fifo.holderOk, hlk, hpc] at hh
    refine inv_local (es := []) (pc' := .getUnlock el) hi hpc rfl (by fifo_side)
      ⟨fun _ => hlk, fun j hj h => h⟩ ?_ ?_ ?_ ?_ ?_ ?_
    all_goals try fifo_side
    simp only [Fifo.holderOk, Fifo.at_, hlk, hself, Fifo.stOk]
    refine ⟨?_, hh⟩
    cases f.queue <;> simp
  case getUnlock el =>
    subst hg
    simp only [Fifo.holderOk, hlk, hpc] at hh
    refine inv_local (es := [.ret i el]) (pc' := .idle) hi hpc rfl rfl
      ⟨by simp [Pc.locked], fun j hj h => by rw [hlk] at h; cases h; exact absurd rfl hj⟩ ?_ ?_ ?_ ?_ ?_ ?_
    all_goals try fifo_side
    · simpa only [Fifo.holderOk, Fifo.at_, Fifo.log, Fifo.unlock, Fifo.stOk] using hh.1
    · intro j e hm
      simp only [List.mem_singleton, FEv.ret.injEq] at hm
      rw [hm.2]; exact hh.2
  case sizeLock =>
    obtain ⟨g, hg, rfl⟩ := hg
    split at hg
    · next hm =>
      cases hg
      refine inv_local (es := []) (pc' := .sizeRead) hi hpc rfl (by fifo_side)
        ⟨fun _ => rfl, fun j _ hj => by rw [hm] at hj; cases hj⟩ ?_ ?_ ?_ ?_ ?_ ?_
      all_goals try fifo_side
      simpa [Fifo.holderOk, Fifo.at_, hself, Fifo.stOk, hm] using hh
    · cases hg
  case sizeRead =>
    subst hg
    simp only [Fifo.holderOk, hlk, hpc] at hh
    refine inv_local (es := []) (pc' := .sizeUnlock f.queue.length) hi hpc rfl (by fifo_side)
      ⟨fun _ => hlk, fun j hj h => h⟩ ?_ ?_ ?_ ?_ ?_ ?_
    all_goals try fifo_side
    simpa only [Fifo.holderOk, Fifo.at_, hlk, hself, Fifo.stOk] using hh
  case sizeUnlock n =>
    subst hg
    simp only [Fifo.holderOk, hlk, hpc] at hh
    refine inv_local (es := [.sized i n]) (pc' := .idle) hi hpc rfl rfl
      ⟨by simp [Pc.locked], fun j hj h => by rw [hlk] at h; cases h; exact absurd rfl hj⟩ ?_ ?_ ?_ ?_ ?_ ?_
    all_goals try fifo_side
    simpa only [Fifo.holderOk, Fifo.at_, Fifo.log, Fifo.unlock, Fifo.stOk] using hh

theorem inv_step {f f' : Fifo} {i : Nat} {a : Act} (hi : f.Inv) (ha : MemoryOk a)
    (hs : f.step i a = some f') : f'.Inv := by
  cases a with
  | spawn =>
    simp only [Fifo.step, Option.some.injEq] at hs
    subst hs
    have hget : ∀ (j : Nat) (pc : Pc), (f.threads ++ [Pc.idle])[j]? = some pc →
        f.threads[j]? = some pc ∨ (pc = Pc.idle ∧ f.threads[j]? = none) := by
      intro j (pc : Pc) h
      rcases Nat.lt_or_ge j f.threads.length with hl | hl
      · left; rwa [List.getElem?_append_left hl] at h
      · right
        rw [List.getElem?_append_right hl] at h
        refine ⟨?_, List.getElem?_eq_none hl⟩
        cases hd : j - f.threads.length <;> simp [hd] at h
        exact h.symm
    refine ⟨?_, ?_, ?_, hi.rep, ?_, ?_, hi.rets⟩
    · intro j pc hj hl
      rcases hget j pc hj with h | ⟨rfl, -⟩
      · exact hi.excl j pc h hl
      · simp [Pc.locked] at hl
    · have := hi.hold
      unfold Fifo.holderOk Fifo.stOk at *
      cases hm : f.mutex with
      | none => simpa [hm] using this
      | some j =>
        rw [hm] at this
        cases hj : f.threads[j]? with
        | none => simp [hj] at this
        | some pc =>
          have hl : j < f.threads.length := by
            rcases Nat.lt_or_ge j f.threads.length with h' | h'
            · exact h'
            · rw [List.getElem?_eq_none h'] at hj; cases hj
          simp only [hj] at this
          simpa [List.getElem?_append_left hl, hj] using this
    · have := hi.count
      simpa [Pc.owed, Pc.unposted, List.countP_append, List.countP_cons] using this
    · intro j pc hj
      rcases hget j pc hj with h | ⟨rfl, h⟩
      · exact hi.own j pc h
      · simpa [Pc.pending] using hi.fresh j h
    · intro j hj
      refine hi.fresh j ?_
      rw [List.getElem?_eq_none_iff] at hj ⊢
      simp at hj
      omega
  | start c =>
    simp only [Fifo.step] at hs
    split at hs
    · next hpc =>
      cases hs
      have hnl := hi.not_holder hpc rfl
      have hc : c.pc.locked = false ∧ c.pc.owed = false ∧ c.pc.unposted = false ∧ c.pc.pending = [] := by
        cases c <;> simp [FCall.pc, Pc.locked, Pc.owed, Pc.unposted, Pc.pending]
      refine inv_local (es := []) (pc' := c.pc) hi hpc rfl (by fifo_side)
        ⟨by simp [hc.1], fun j hj h => h⟩ (holderOk_outside hi hnl rfl rfl rfl rfl) ?_ ?_ ?_ ?_ ?_
      · have e : Pc.idle.owed = false ∧ Pc.idle.unposted = false := by decide
        simp [Fifo.at_, hc, e]
      · fifo_side
      · have e : Pc.idle.pending = [] := rfl
        simp [hc, e, takenBy, returned]
      · fifo_side
      · fifo_side
    · cases hs
  | interrupted =>
    simp only [Fifo.step] at hs
    split at hs
    · next hpc =>
      cases hs
      rcases hpc with hpc | hpc
      all_goals
        have hnl := hi.not_holder hpc rfl
        refine inv_local (es := [.refused i]) (pc' := .idle) hi hpc rfl (by fifo_side)
          ⟨by simp [Pc.locked], fun j hj h => h⟩ (holderOk_outside hi hnl rfl rfl rfl rfl) ?_ ?_ ?_ ?_ ?_
        all_goals try fifo_side
    · cases hs
  | go malloc =>
    cases malloc with
    | false => exact absurd rfl ha
    | true =>
      simp only [Fifo.step] at hs
      cases hpc : f.threads[i]? with
      | none => simp [hpc] at hs
      | some pc =>
        simp only [hpc] at hs
        exact inv_go hi hpc hs

theorem inv_init : ({} : Fifo).Inv := by
  refine ⟨by simp, ?_, rfl, rfl, by simp, fun _ _ => rfl, by simp⟩
  simp [Fifo.holderOk, Fifo.stOk]

theorem fifo_run_inv {P : Fifo → Prop} {O : Act → Prop} (h0 : P {})
    (hstep : ∀ f f' i a, P f → O a → f.step i a = some f' → P f') {f : Fifo}
    (h : FifoReach O f) : P f := by
  obtain ⟨s, hr, ho⟩ := h
  have gen : ∀ (s : List (Nat × Act)) (g : Fifo), P g → (∀ x ∈ s, O x.2) → g.run s = some f → P f := by
    intro s
    induction s with
    | nil => intro g hg _ hr; simp [Fifo.run] at hr; exact hr ▸ hg
    | cons x s ih =>
      obtain ⟨i, a⟩ := x
      intro g hg ho hr
      simp only [Fifo.run, Option.bind_eq_some_iff] at hr
      obtain ⟨g', h1, h2⟩ := hr
      exact ih g' (hstep g g' i a hg (ho (i, a) (by simp)) h1) (fun x hx => ho x (by simp [hx])) h2
  exact gen s _ h0 ho hr

theorem reach_fifoInv {f : Fifo} (h : FifoReach MemoryOk f) : f.Inv :=
  fifo_run_inv inv_init (fun _ _ _ _ hi ha hs => inv_step hi ha hs) h

/-! ## C24 -/

/-- **C24** (every schedule of any number of threads, memory available). The history of the queue is
one of a sequential queue whose contents at the end is the queue: elements taken are always the
first of those put and not yet taken; nothing is lost, duplicated or invented. -/
theorem c24_sequential_partial {f : Fifo} (h : FifoReach MemoryOk f) :
    replay [] f.trace = some f.queue := (reach_fifoInv h).rep

/-- Memory is available and nobody uses `osip_fifo_insert`. -/
def AddOnly (a : Act) : Prop := a ≠ .go false ∧ ∀ el, a ≠ .start (.insert el)

theorem replay_addOnly {t : List FEv} (hf : ∀ i el fr, FEv.put i el fr ∈ t → fr = false)
    {q q' : List Nat} (hr : replay q t = some q') : q ++ puts t = takes t ++ q' := by
  induction t generalizing q with
  | nil => simp [replay] at hr; simp [hr, puts, takes]
  | cons e t ih =>
    have ih' := fun {q : List Nat} hr => ih (fun i el fr hm => hf i el fr (by simp [hm])) (q := q) hr
    cases e with
    | put i el fr =>
      have : fr = false := hf i el fr (by simp)
      subst this
      simp only [replay, Bool.false_eq_true, if_false] at hr
      have := ih' hr
      simpa [puts, takes] using this
    | took i el =>
      cases el with
      | none => cases q <;> simp [replay] at hr
      | some y =>
        cases q with
        | nil => simp [replay] at hr
        | cons x q =>
          simp only [replay] at hr
          split at hr
          · next hxy =>
            subst hxy
            have := ih' hr
            simpa [puts, takes] using this
          · cases hr
    | ret i el => simpa [puts, takes] using ih' (q := q) (by cases q <;> simpa [replay] using hr)
    | refused i => simpa [puts, takes] using ih' (q := q) (by cases q <;> simpa [replay] using hr)
    | added i => simpa [puts, takes] using ih' (q := q) (by cases q <;> simpa [replay] using hr)
    | sized i n => simpa [puts, takes] using ih' (q := q) (by cases q <;> simpa [replay] using hr)

theorem addOnly_back {f : Fifo} (h : FifoReach AddOnly f) :
    (∀ pc ∈ f.threads, ∀ el, pc ≠ .addLock el true ∧ pc ≠ .addIns el true) ∧
    ∀ i el fr, FEv.put i el fr ∈ f.trace → fr = false := by
  refine fifo_run_inv (P := fun f =>
    (∀ pc ∈ f.threads, ∀ el, pc ≠ .addLock el true ∧ pc ≠ .addIns el true) ∧
    ∀ i el fr, FEv.put i el fr ∈ f.trace → fr = false) (by simp) ?_ h
  rintro f f' i a ⟨h1, h2⟩ ⟨ha1, ha2⟩ hs
  have hset : ∀ pc', (∀ el, pc' ≠ .addLock el true ∧ pc' ≠ .addIns el true) →
      ∀ pc ∈ f.threads.set i pc', ∀ el, pc ≠ .addLock el true ∧ pc ≠ .addIns el true := by
    intro pc' hp pc hm
    rcases List.mem_or_eq_of_mem_set hm with hm | rfl
    · exact h1 pc hm
    · exact hp
  cases a with
  | spawn =>
    simp only [Fifo.step, Option.some.injEq] at hs
    subst hs
    refine ⟨?_, h2⟩
    intro pc hm
    rcases List.mem_append.1 hm with hm | hm
    · exact h1 pc hm
    · simp only [List.mem_singleton] at hm
      subst hm
      simp
  | start c =>
    simp only [Fifo.step] at hs
    split at hs
    · cases hs
      refine ⟨hset _ ?_, h2⟩
      cases c <;> simp [FCall.pc] at ha2 ⊢
    · cases hs
  | interrupted =>
    simp only [Fifo.step] at hs
    split at hs
    · cases hs
      refine ⟨hset _ (by simp), ?_⟩
      intro j el fr hm
      simp [Fifo.log, Fifo.at_] at hm
      exact h2 j el fr hm
    · cases hs
  | go malloc =>
    have hmal : malloc = true := by cases malloc <;> simp_all
    subst hmal
    simp only [Fifo.step] at hs
    cases hpc : f.threads[i]? with
    | none => simp [hpc] at hs
    | some pc =>
      have hp := h1 pc (List.mem_of_getElem? hpc)
      simp only [hpc] at hs
      cases pc
      all_goals simp only [Fifo.go, Fifo.lock, Option.some.injEq, if_true, reduceCtorEq,
        Option.map_eq_some_iff] at hs
      case addLock el fr =>
        obtain ⟨g, hg, rfl⟩ := hs
        split at hg
        · cases hg
          refine ⟨hset _ ?_, h2⟩
          intro el'
          have := hp el'
          simp_all
        · cases hg
      case addIns el fr =>
        subst hs
        refine ⟨hset _ (by simp), ?_⟩
        intro j el' fr' hm
        simp [Fifo.log, Fifo.at_] at hm
        rcases hm with hm | ⟨rfl, rfl, rfl⟩
        · exact h2 j el' fr' hm
        · have := hp el'
          cases fr' <;> simp_all
      case getLock | sizeLock =>
        obtain ⟨g, hg, rfl⟩ := hs
        split at hg
        · cases hg
          exact ⟨hset _ (by simp), h2⟩
        · cases hg
      case getWait | tryWait | getTest =>
        split at hs
        all_goals cases hs
        all_goals refine ⟨hset _ (by simp), ?_⟩
        all_goals
          intro j el' fr' hm
          simp [Fifo.log, Fifo.at_] at hm
          exact h2 j el' fr' hm
      all_goals
        subst hs
        refine ⟨hset _ (by simp), ?_⟩
        intro j el' fr' hm
        simp [Fifo.log, Fifo.at_, Fifo.unlock] at hm
        exact h2 j el' fr' hm

/-- **C24** (order). When elements are only added by `osip_fifo_add`, the elements taken out are, in
order, a prefix of the elements added, and the rest is in the queue. -/
theorem c24_fifo_partial {f : Fifo} (h : FifoReach AddOnly f) :
    puts f.trace = takes f.trace ++ f.queue := by
  have h' : FifoReach MemoryOk f := by
    obtain ⟨s, h1, h2⟩ := h
    exact ⟨s, h1, fun x hx => (h2 x hx).1⟩
  have := replay_addOnly (addOnly_back h).2 (c24_sequential_partial h')
  simpa using this

/-- **C24** (results). Every reading call which passed its semaphore returns an element, never NULL;
and each thread has returned exactly what it took out of the list, in order, but for the element it
is about to return. -/
theorem c24_returned_partial {f : Fifo} (h : FifoReach MemoryOk f) :
    (∀ i el, FEv.ret i el ∈ f.trace → el ≠ none) ∧
    ∀ i pc, f.threads[i]? = some pc →
      ∃ rest, takenBy i f.trace = returned i f.trace ++ rest ∧ rest.length ≤ 1 ∧
        (pc = .idle → rest = []) := by
  have hi := reach_fifoInv h
  refine ⟨fun i el hm hn => ?_, fun i pc hpc => ⟨pc.pending, hi.own i pc hpc, ?_, ?_⟩⟩
  · have := hi.rets i el hm
    rw [hn] at this
    cases this
  · cases pc <;> simp [Pc.pending]
  · rintro rfl; rfl

/-- **C24** (mutual exclusion). Two threads are never both between locking and unlocking. -/
theorem c24_exclusive_partial {f : Fifo} (h : FifoReach MemoryOk f) {i j : Nat} {p q : Pc}
    (hi : f.threads[i]? = some p) (hj : f.threads[j]? = some q) (hp : p.locked = true)
    (hq : q.locked = true) : i = j := by
  have hv := reach_fifoInv h
  have h1 := hv.excl i p hi hp
  rw [hv.excl j q hj hq] at h1
  cases h1
  rfl

/-- **C24** (no lost wake-up, no deadlock). As long as a thread is inside a call, some thread can go
on - unless all of those are readers waiting in `osip_fifo_get` and the queue is empty. -/
theorem c24_progress_partial {f : Fifo} (h : FifoReach MemoryOk f)
    (hb : ∃ (i : Nat) (pc : Pc), f.threads[i]? = some pc ∧ pc ≠ .idle ∧ ¬ (pc = .getWait ∧ f.queue = [])) :
    ∃ j f', f.step j (.go true) = some f' := by
  have hv := reach_fifoInv h
  have hh := hv.hold
  unfold Fifo.holderOk at hh
  cases hm : f.mutex with
  | some j =>
    simp only [hm] at hh
    cases hj : f.threads[j]? with
    | none => simp [hj] at hh
    | some pc =>
      refine ⟨j, ?_⟩
      simp only [Fifo.step, hj]
      simp only [hj] at hh
      cases pc <;> simp only at hh <;> try exact hh.elim
      case getTest =>
        simp only [Fifo.go]
        split <;> exact ⟨_, rfl⟩
      all_goals exact ⟨_, rfl⟩
  | none =>
    obtain ⟨i, pc, hpc, hid, hw⟩ := hb
    have hnl : pc.locked = false := by
      cases hl : pc.locked with
      | false => rfl
      | true => rw [hv.excl i pc hpc hl] at hm; cases hm
    have lock : ∀ k, f.lock k = some { f with mutex := some k } := by
      intro k; simp [Fifo.lock, hm]
    cases pc <;> simp only [Pc.locked, Bool.true_eq_false, reduceCtorEq] at hnl
    case idle => exact absurd rfl hid
    case addLock el fr => exact ⟨i, _, by simp only [Fifo.step, hpc, Fifo.go, lock, Option.map_some]; rfl⟩
    case getLock => exact ⟨i, _, by simp only [Fifo.step, hpc, Fifo.go, lock, Option.map_some]; rfl⟩
    case sizeLock => exact ⟨i, _, by simp only [Fifo.step, hpc, Fifo.go, lock, Option.map_some]; rfl⟩
    case tryWait =>
      refine ⟨i, ?_⟩
      simp only [Fifo.step, hpc, Fifo.go]
      split <;> exact ⟨_, rfl⟩
    case getWait =>
      by_cases hs : f.sem = 0
      · have hne : f.queue ≠ [] := fun he => hw ⟨rfl, he⟩
        have hc := hv.count
        have hu : f.threads.countP Pc.unposted = 0 := by
          rw [List.countP_eq_zero]
          intro p hp hu
          obtain ⟨k, hk⟩ := List.getElem?_of_mem hp
          have : p.locked = true := by cases p <;> simp_all [Pc.unposted, Pc.locked]
          rw [hv.excl k p hk this] at hm
          cases hm
        have hpos : 0 < f.threads.countP Pc.owed := by
          have := List.length_pos_iff.2 hne
          omega
        obtain ⟨p, hp, hpo⟩ := List.countP_pos_iff.1 hpos
        obtain ⟨k, hk⟩ := List.getElem?_of_mem hp
        have hlk : p.locked = false := by
          cases hl : p.locked with
          | false => rfl
          | true => rw [hv.excl k p hk hl] at hm; cases hm
        have : p = .getLock := by cases p <;> simp_all [Pc.owed, Pc.locked]
        subst this
        exact ⟨k, _, by simp only [Fifo.step, hk, Fifo.go, lock, Option.map_some]; rfl⟩
      · exact ⟨i, _, by simp only [Fifo.step, hpc, Fifo.go, if_neg hs]; rfl⟩

/-! ## Examples -/

/-- Two writers and a reader, interleaved. -/
def fifoRun : List (Nat × Act) :=
  let g : Act := .go true
  [(0, .spawn), (0, .spawn), (0, .spawn), (2, .start .get), (0, .start (.add 7)),
   (1, .start (.add 8)), (1, g), (1, g), (1, g), (1, g), (2, g), (1, g), (0, g), (0, g), (0, g),
   (0, g), (0, g), (2, g), (2, g), (2, g), (2, g), (2, g), (2, g)]

example : (({} : Fifo).run fifoRun).map (fun f => (f.trace, f.queue, f.sem)) =
    some ([.put 1 8 false, .added 1, .put 0 7 false, .added 0, .took 2 (some 8), .ret 2 (some 8)],
      [7], 1) := by decide +kernel

/-- Without memory the property fails: `osip_fifo_add` reports success, nothing is queued, and the
reader that passed the semaphore gets NULL. -/
theorem c24_violated : ∃ f : Fifo, FifoReach (fun _ => True) f ∧ FEv.added 0 ∈ f.trace ∧
    FEv.ret 1 none ∈ f.trace ∧ puts f.trace = [] := by
  let s : List (Nat × Act) := [(0, .spawn), (0, .spawn), (0, .start (.add 7)), (0, .go true), (0, .go false),
    (0, .go true), (0, .go true), (0, .go true), (1, .start .get), (1, .go true), (1, .go true),
    (1, .go true), (1, .go true), (1, .go true), (1, .go true), (1, .go true)]
  have h : (({} : Fifo).run s).any (fun f => decide (FEv.added 0 ∈ f.trace ∧
    FEv.ret 1 none ∈ f.trace ∧ puts f.trace = [])) = true := by decide +kernel
  cases hr : ({} : Fifo).run s with
  | none => simp [hr] at h
  | some f =>
    simp only [hr, Option.any_some, decide_eq_true_eq] at h
    exact ⟨f, ⟨s, hr, fun _ _ => trivial⟩, h⟩

end Osip
