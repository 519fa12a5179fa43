import Verif.Timeout
import Verif.Fsm.PropsTimers

/-!
# The suggested sleeping time: C28
-/

namespace Osip

/-- The deadline `d` of a running timer of one of the transactions of kind `k` in the list. -/
def RunningIn (k : Kind) (l : List (Tr × List Ev)) (d : TimeVal) : Prop :=
  ∃ x ∈ l, ∃ t ∈ kindTimers k, x.1.state ∈ rfcTimerStates t ∧ (x.1.deadline t).sec ≠ -1 ∧
    d = x.1.deadline t

/-- `d` is the deadline of a running timer of the stack. -/
def TimerView.Running (v : TimerView) (d : TimeVal) : Prop :=
  RunningIn .ICT v.icts d ∨ RunningIn .IST v.ists d ∨ RunningIn .NICT v.nicts d ∨
    RunningIn .NIST v.nists d ∨ (d ∈ v.ixts ∧ d.sec ≠ -1)

/-- `r` is the smallest of `lower` and the time stamps in `D`. -/
def MinOf (D : TimeVal → Prop) (lower r : TimeVal) : Prop :=
  r.micros ≤ lower.micros ∧ (∀ d, D d → r.micros ≤ d.micros) ∧ (r = lower ∨ D r)

theorem MinOf.none {l : TimeVal} {D : TimeVal → Prop} (h : ∀ d, ¬ D d) : MinOf D l l :=
  ⟨Int.le_refl _, fun d hd => absurd hd (h d), Or.inl rfl⟩

theorem MinOf.trans {D E F : TimeVal → Prop} {l m r : TimeVal} (h1 : MinOf D l m)
    (h2 : MinOf E m r) (hF : ∀ d, F d ↔ D d ∨ E d) : MinOf F l r := by
  refine ⟨Int.le_trans h2.1 h1.1, ?_, ?_⟩
  · intro d hd
    rcases (hF d).1 hd with h | h
    · exact Int.le_trans h2.1 (h1.2.1 d h)
    · exact h2.2.1 d h
  · rcases h2.2.2 with h | h
    · subst h
      rcases h1.2.2 with h | h
      · exact Or.inl h
      · exact Or.inr ((hF _).2 (Or.inl h))
    · exact Or.inr ((hF _).2 (Or.inr h))

theorem min_timercmp_minOf {l t : TimeVal} (hl : l.Normal) (ht : t.sec ≠ -1 → t.Normal) :
    MinOf (fun d => t.sec ≠ -1 ∧ d = t) l (min_timercmp l t) := by
  unfold min_timercmp
  split
  · next h => exact MinOf.none (by grind)
  · next h =>
    have h1 := timerGt_iff hl (ht h)
    split
    · next h2 =>
      have h3 := h1.1 h2
      unfold MinOf
      refine ⟨by omega, by rintro d ⟨_, rfl⟩; omega, Or.inr ⟨h, rfl⟩⟩
    · next h2 =>
      have h3 : ¬ l.micros > t.micros := fun hc => h2 (h1.2 hc)
      unfold MinOf
      refine ⟨by omega, by rintro d ⟨_, rfl⟩; omega, Or.inl rfl⟩

theorem MinOf.normal {D : TimeVal → Prop} {l r : TimeVal} (h : MinOf D l r) (hl : l.Normal)
    (hD : ∀ d, D d → d.Normal) : r.Normal := by
  rcases h.2.2 with h | h
  · exact h ▸ hl
  · exact hD _ h

theorem cond_minOf {l t : TimeVal} {p : Prop} [Decidable p] (hl : l.Normal)
    (ht : p → t.sec ≠ -1 → t.Normal) :
    MinOf (fun d => p ∧ t.sec ≠ -1 ∧ d = t) l (if p then min_timercmp l t else l) := by
  split
  · next h =>
    have := min_timercmp_minOf hl (ht h)
    simpa [h] using this
  · next h => exact MinOf.none (by simp [h])

/-- What one transaction contributes. -/
def Contrib (k : Kind) (tr : Tr) (d : TimeVal) : Prop :=
  ∃ t ∈ kindTimers k, tr.state ∈ rfcTimerStates t ∧ (tr.deadline t).sec ≠ -1 ∧ d = tr.deadline t

theorem ictMin_minOf {tr : Tr} {l : TimeVal} (hl : l.Normal)
    (hd : ∀ d, Contrib .ICT tr d → d.Normal) : MinOf (Contrib .ICT tr) l (ictMin tr l) := by
  simp [Contrib, kindTimers, rfcTimerStates, Tr.deadline] at hd
  have h1 := cond_minOf (p := tr.state = .ICT_CALLING) (t := tr.ict.timer_b_start) hl (by grind)
  have n1 := h1.normal hl (by grind)
  have h2 := cond_minOf (p := tr.state = .ICT_CALLING) (t := tr.ict.timer_a_start) n1 (by grind)
  have h12 := h1.trans h2 (fun d => Iff.rfl)
  have n2 := h12.normal hl (by grind)
  have h3 := cond_minOf (p := tr.state = .ICT_COMPLETED) (t := tr.ict.timer_d_start) n2 (by grind)
  refine h12.trans h3 (fun d => ?_)
  simp [Contrib, kindTimers, rfcTimerStates, Tr.deadline]
  grind

theorem istMin_minOf {tr : Tr} {l : TimeVal} (hl : l.Normal)
    (hd : ∀ d, Contrib .IST tr d → d.Normal) : MinOf (Contrib .IST tr) l (istMin tr l) := by
  simp [Contrib, kindTimers, rfcTimerStates, Tr.deadline] at hd
  have h1 := cond_minOf (p := tr.state = .IST_CONFIRMED) (t := tr.ist.timer_i_start) hl (by grind)
  have n1 := h1.normal hl (by grind)
  have h2 := cond_minOf (p := tr.state = .IST_COMPLETED) (t := tr.ist.timer_h_start) n1 (by grind)
  have h12 := h1.trans h2 (fun d => Iff.rfl)
  have n2 := h12.normal hl (by grind)
  have h3 := cond_minOf (p := tr.state = .IST_COMPLETED) (t := tr.ist.timer_g_start) n2 (by grind)
  refine h12.trans h3 (fun d => ?_)
  simp [Contrib, kindTimers, rfcTimerStates, Tr.deadline]
  grind

theorem nictMin_minOf {tr : Tr} {l : TimeVal} (hl : l.Normal)
    (hd : ∀ d, Contrib .NICT tr d → d.Normal) : MinOf (Contrib .NICT tr) l (nictMin tr l) := by
  simp [Contrib, kindTimers, rfcTimerStates, Tr.deadline] at hd
  have h1 := cond_minOf (p := tr.state = .NICT_COMPLETED) (t := tr.nict.timer_k_start) hl (by grind)
  have n1 := h1.normal hl (by grind)
  have h2 := cond_minOf (p := tr.state = .NICT_PROCEEDING ∨ tr.state = .NICT_TRYING)
    (t := tr.nict.timer_f_start) n1 (by grind)
  have h12 := h1.trans h2 (fun d => Iff.rfl)
  have n2 := h12.normal hl (by grind)
  have h3 := cond_minOf (p := tr.state = .NICT_PROCEEDING ∨ tr.state = .NICT_TRYING)
    (t := tr.nict.timer_e_start) n2 (by grind)
  refine h12.trans h3 (fun d => ?_)
  simp [Contrib, kindTimers, rfcTimerStates, Tr.deadline]
  grind

theorem nistMin_minOf {tr : Tr} {l : TimeVal} (hl : l.Normal)
    (hd : ∀ d, Contrib .NIST tr d → d.Normal) : MinOf (Contrib .NIST tr) l (nistMin tr l) := by
  simp [Contrib, kindTimers, rfcTimerStates, Tr.deadline] at hd
  have h1 := cond_minOf (p := tr.state = .NIST_COMPLETED) (t := tr.nist.timer_j_start) hl (by grind)
  refine h1.trans (MinOf.none (D := fun _ => False) (by simp)) (fun d => ?_)
  simp [Contrib, kindTimers, rfcTimerStates, Tr.deadline]

/-- One loop: either it gives the minimum, which is not in the past, or it stopped because of a
pending event or of a deadline in the past. -/
theorem minLoop_spec {α : Type} {now : TimeVal} {pending : α → Bool} {f : α → TimeVal → TimeVal}
    {C : α → TimeVal → Prop} (hnow : now.Normal) : ∀ (xs : List α) (l : TimeVal), l.Normal →
    now.micros ≤ l.micros → (∀ x ∈ xs, ∀ d, C x d → d.Normal) →
    (∀ x ∈ xs, ∀ l, l.Normal → MinOf (C x) l (f x l)) →
    match minLoop now pending f xs l with
    | none => (∃ x ∈ xs, pending x = true) ∨ ∃ x ∈ xs, ∃ d, C x d ∧ d.micros < now.micros
    | some r => (∀ x ∈ xs, pending x = false) ∧ r.Normal ∧ now.micros ≤ r.micros ∧
        MinOf (fun d => ∃ x ∈ xs, C x d) l r := by
  intro xs
  induction xs with
  | nil => intro l hl hnl _ _; simpa [minLoop, hl, hnl] using MinOf.none (by simp)
  | cons x xs ih =>
    intro l hl hnl hC hf
    unfold minLoop
    cases hp : pending x with
    | true => simp [hp]
    | false =>
      simp only [Bool.false_eq_true, if_false]
      have h1 := hf x (by simp) l hl
      have n1 := h1.normal hl (hC x (by simp))
      have hg := timerGt_iff hnow n1
      cases hgt : timerGt now (f x l) with
      | true =>
        simp only [if_true]
        have hlt := hg.1 hgt
        right
        rcases h1.2.2 with h | h
        · rw [h] at hlt; omega
        · exact ⟨x, by simp, _, h, hlt⟩
      | false =>
        simp only [Bool.false_eq_true, if_false]
        have hge : now.micros ≤ (f x l).micros := by
          have : ¬ now.micros > (f x l).micros := fun hc => by rw [hg.2 hc] at hgt; cases hgt
          omega
        have h2 := ih (f x l) n1 hge (fun y hy => hC y (by simp [hy])) (fun y hy => hf y (by simp [hy]))
        revert h2
        cases minLoop now pending f xs (f x l) with
        | none => simp; grind
        | some r =>
          simp only
          rintro ⟨a, b, c, d⟩
          refine ⟨by simp [hp]; exact a, b, c, h1.trans d ?_⟩
          intro d'
          simp

theorem subtractNow_spec {l now : TimeVal} (hl : l.Normal) (hn : now.Normal)
    (h : now.micros ≤ l.micros) :
    0 ≤ (subtractNow l now).sec ∧ (subtractNow l now).Normal ∧
      (subtractNow l now).micros = l.micros - now.micros := by
  unfold TimeVal.Normal TimeVal.micros at *
  unfold subtractNow
  grind

/-- One year in microseconds, the longest sleep suggested. -/
def yearMicros : Int := 365 * 24 * 3600 * 1000000

/-- The view of one loop over transactions in the shape of `minLoop_spec`. -/
theorem trLoop {now : TimeVal} {pending : Tr × List Ev → Bool} {k : Kind}
    {f : Tr → TimeVal → TimeVal} {xs : List (Tr × List Ev)} {l : TimeVal} (hnow : now.Normal)
    (hl : l.Normal) (hnl : now.micros ≤ l.micros) (hd : ∀ d, RunningIn k xs d → d.Normal)
    (hf : ∀ tr l, l.Normal → (∀ d, Contrib k tr d → d.Normal) → MinOf (Contrib k tr) l (f tr l)) :
    match minLoop now pending (fun x => f x.1) xs l with
    | none => (∃ x ∈ xs, pending x = true) ∨ ∃ d, RunningIn k xs d ∧ d.micros < now.micros
    | some r => (∀ x ∈ xs, pending x = false) ∧ r.Normal ∧ now.micros ≤ r.micros ∧
        MinOf (RunningIn k xs) l r := by
  have h := minLoop_spec (pending := pending) (f := fun x : Tr × List Ev => f x.1)
    (C := fun x => Contrib k x.1) hnow xs l hl hnl
    (fun x hx d h => hd d ⟨x, hx, h⟩) (fun x hx l hl => hf x.1 l hl (fun d h => hd d ⟨x, hx, h⟩))
  revert h
  cases minLoop now pending (fun x => f x.1) xs l with
  | none =>
    simp only
    rintro (h | ⟨x, hx, d, hc, hlt⟩)
    · exact Or.inl h
    · exact Or.inr ⟨d, ⟨x, hx, hc⟩, hlt⟩
  | some r =>
    simp only
    rintro ⟨a, b, c, d⟩
    exact ⟨a, b, c, d⟩

theorem gettimeout_cases {v : TimerView} {now : TimeVal} (hn : now.Normal)
    (hd : ∀ d, v.Running d → d.Normal) :
    (osip_timers_gettimeout v now = ⟨0, 0⟩ ∧
      ((∃ x ∈ v.icts, x.2 ≠ []) ∨ ∃ d, v.Running d ∧ d.micros < now.micros)) ∨
    ((∀ x ∈ v.icts, x.2 = []) ∧ ∃ r : TimeVal, r.Normal ∧ now.micros ≤ r.micros ∧
      MinOf v.Running ⟨now.sec + 3600 * 24 * 365, now.usec⟩ r ∧
      osip_timers_gettimeout v now = subtractNow r now) := by
  have hl : TimeVal.Normal ⟨now.sec + 3600 * 24 * 365, now.usec⟩ := hn
  have hnl : now.micros ≤ TimeVal.micros ⟨now.sec + 3600 * 24 * 365, now.usec⟩ := by
    simp only [TimeVal.micros]; omega
  unfold osip_timers_gettimeout
  simp only
  have h1 := trLoop (pending := fun x => !x.2.isEmpty) hn hl hnl
    (fun d h => hd d (Or.inl h)) (fun tr l a b => ictMin_minOf a b)
  cases e1 : minLoop now (fun x => !x.2.isEmpty) (fun x => ictMin x.1) v.icts
    ⟨now.sec + 3600 * 24 * 365, now.usec⟩ with
  | none =>
    rw [e1] at h1
    left
    simp only at h1
    refine ⟨by simp, ?_⟩
    rcases h1 with ⟨x, hx, h⟩ | ⟨d, h, hlt⟩
    · exact Or.inl ⟨x, hx, by intro hc; simp [hc] at h⟩
    · exact Or.inr ⟨d, Or.inl h, hlt⟩
  | some r1 =>
  rw [e1] at h1
  obtain ⟨p1, n1, g1, m1⟩ := h1
  have h2 := trLoop (pending := fun _ => false) hn n1 g1
    (fun d h => hd d (Or.inr (Or.inl h))) (fun tr l a b => istMin_minOf a b)
  cases e2 : minLoop now (fun _ => false) (fun x => istMin x.1) v.ists r1 with
  | none =>
    rw [e2] at h2
    left
    refine ⟨by simp [e2], ?_⟩
    rcases h2 with ⟨x, hx, h⟩ | ⟨d, h, hlt⟩
    · simp at h
    · exact Or.inr ⟨d, Or.inr (Or.inl h), hlt⟩
  | some r2 =>
  rw [e2] at h2
  obtain ⟨_, n2, g2, m2⟩ := h2
  have h3 := trLoop (pending := fun _ => false) hn n2 g2
    (fun d h => hd d (Or.inr (Or.inr (Or.inl h)))) (fun tr l a b => nictMin_minOf a b)
  cases e3 : minLoop now (fun _ => false) (fun x => nictMin x.1) v.nicts r2 with
  | none =>
    rw [e3] at h3
    left
    refine ⟨by simp [e2, e3], ?_⟩
    rcases h3 with ⟨x, hx, h⟩ | ⟨d, h, hlt⟩
    · simp at h
    · exact Or.inr ⟨d, Or.inr (Or.inr (Or.inl h)), hlt⟩
  | some r3 =>
  rw [e3] at h3
  obtain ⟨_, n3, g3, m3⟩ := h3
  have h4 := trLoop (pending := fun _ => false) hn n3 g3
    (fun d h => hd d (Or.inr (Or.inr (Or.inr (Or.inl h))))) (fun tr l a b => nistMin_minOf a b)
  cases e4 : minLoop now (fun _ => false) (fun x => nistMin x.1) v.nists r3 with
  | none =>
    rw [e4] at h4
    left
    refine ⟨by simp [e2, e3, e4], ?_⟩
    rcases h4 with ⟨x, hx, h⟩ | ⟨d, h, hlt⟩
    · simp at h
    · exact Or.inr ⟨d, Or.inr (Or.inr (Or.inr (Or.inl h))), hlt⟩
  | some r4 =>
  rw [e4] at h4
  obtain ⟨_, n4, g4, m4⟩ := h4
  have h5 := minLoop_spec (pending := fun _ : TimeVal => false) (f := fun s l => min_timercmp l s)
    (C := fun s d => s.sec ≠ -1 ∧ d = s) hn v.ixts r4 n4 g4
    (fun s hs d h => hd d (Or.inr (Or.inr (Or.inr (Or.inr ⟨by rw [h.2]; exact hs, by rw [h.2]; exact h.1⟩)))))
    (fun s hs l hl => min_timercmp_minOf hl
      (fun h => hd s (Or.inr (Or.inr (Or.inr (Or.inr ⟨hs, h⟩))))))
  cases e5 : minLoop now (fun _ => false) (fun s l => min_timercmp l s) v.ixts r4 with
  | none =>
    rw [e5] at h5
    left
    refine ⟨by simp [e2, e3, e4, e5], ?_⟩
    rcases h5 with ⟨x, hx, h⟩ | ⟨x, hx, d, ⟨h, rfl⟩, hlt⟩
    · simp at h
    · exact Or.inr ⟨d, Or.inr (Or.inr (Or.inr (Or.inr ⟨hx, h⟩))), hlt⟩
  | some r5 =>
  rw [e5] at h5
  obtain ⟨_, n5, g5, m5⟩ := h5
  right
  refine ⟨fun x hx => by simpa using p1 x hx, r5, n5, g5, ?_, by simp [e2, e3, e4, e5]⟩
  refine (((m1.trans m2 (fun d => Iff.rfl)).trans m3 (fun d => Iff.rfl)).trans m4
    (fun d => Iff.rfl)).trans m5 (fun d => ?_)
  simp [TimerView.Running]
  grind

/-- **C28** (all but the last words). The suggested sleep is a normalised duration of at most a
year; waking up after it is never after the deadline of a running timer unless that deadline has
already passed; it is zero if a running timer has expired or an INVITE client transaction has an
event waiting; and if it is not zero for one of these reasons it ends exactly at a deadline (or
lasts a year), so that the application is never woken up for nothing.
Missing: "an event waits" for the other three kinds of transactions, whose queues the function does
not look at (`c28_violated`). -/
theorem c28_gettimeout_partial {v : TimerView} {now : TimeVal} (hn : now.Normal)
    (hd : ∀ d, v.Running d → d.Normal) :
    let r := osip_timers_gettimeout v now
    (0 ≤ r.sec ∧ 0 ≤ r.usec ∧ r.usec < 1000000 ∧ r.micros ≤ yearMicros) ∧
    (∀ d, v.Running d → now.micros ≤ d.micros → now.micros + r.micros ≤ d.micros) ∧
    ((∃ d, v.Running d ∧ d.micros < now.micros) → r = ⟨0, 0⟩) ∧
    ((∃ x ∈ v.icts, x.2 ≠ []) → r = ⟨0, 0⟩) ∧
    ((∀ d, v.Running d → now.micros ≤ d.micros) → (∀ x ∈ v.icts, x.2 = []) →
      r.micros = yearMicros ∨ ∃ d, v.Running d ∧ now.micros + r.micros = d.micros) := by
  intro r
  rcases gettimeout_cases hn hd with ⟨h0, hwhy⟩ | ⟨hq, m, hm, hge, hmin, he⟩
  · have hr : r = ⟨0, 0⟩ := h0
    rw [hr]
    refine ⟨by decide, ?_, fun _ => rfl, fun _ => rfl, ?_⟩
    · intro d _ h
      simp only [TimeVal.micros] at *
      omega
    · intro ha hb
      rcases hwhy with ⟨x, hx, h⟩ | ⟨d, h, hlt⟩
      · exact absurd (hb x hx) h
      · have := ha d h
        omega
  · have hr : r = subtractNow m now := he
    rw [hr]
    obtain ⟨s1, s2, s3⟩ := subtractNow_spec hm hn hge
    have hy : TimeVal.micros ⟨now.sec + 3600 * 24 * 365, now.usec⟩ = now.micros + yearMicros := by
      simp only [TimeVal.micros, yearMicros]; omega
    have hle := hmin.1
    rw [hy] at hle
    refine ⟨⟨s1, s2.1, s2.2, by omega⟩, ?_, ?_, ?_, ?_⟩
    · intro d h _
      have := hmin.2.1 d h
      omega
    · rintro ⟨d, h, hlt⟩
      have := hmin.2.1 d h
      omega
    · rintro ⟨x, hx, h⟩
      exact absurd (hq x hx) h
    · intro _ _
      rcases hmin.2.2 with h | h
      · left; rw [s3, h, hy]; omega
      · right; exact ⟨m, h, by omega⟩

/-- A transaction in CALLING with timers A and B, one in COMPLETED (timer J): the sleep ends at
the earliest of the three deadlines. -/
example : osip_timers_gettimeout
    { icts := [({ ctx_type := .ICT, state := .ICT_CALLING,
                  ict := { timer_a_start := ⟨10, 400000⟩, timer_b_start := ⟨42, 0⟩ } }, [])],
      nists := [({ ctx_type := .NIST, state := .NIST_COMPLETED,
                   nist := { timer_j_start := ⟨11, 0⟩ } }, [])] }
    ⟨9, 900000⟩ = ⟨0, 500000⟩ := by decide

/-- **C28** does not hold in full: a non-INVITE client transaction has an event waiting in its queue and
the function suggests to sleep for a year. -/
theorem c28_violated : ∃ v : TimerView, ∃ now : TimeVal, now.Normal ∧
    (∃ x ∈ v.nicts, x.2 ≠ []) ∧ (osip_timers_gettimeout v now).micros = yearMicros :=
  ⟨{ nicts := [({ ctx_type := .NICT, state := .NICT_PRE_TRYING }, [⟨.KILL_TRANSACTION, none⟩])] },
    ⟨9, 900000⟩, by decide, ⟨_, List.mem_singleton.2 rfl, by decide⟩, by decide⟩

end Osip
