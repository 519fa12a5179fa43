import Verif.Fsm.Safe
import Verif.Fsm.Examples

/-!
# Ownership of messages: C14
-/

namespace Osip

/-- The address held by a pointer. -/
def oid (r : Option Ref) : Option Nat := r.map (·.id)

@[simp] theorem oid_none : oid none = none := rfl
@[simp] theorem oid_some (r : Ref) : oid (some r) = some r.id := rfl

theorem along_append (id : Nat) (l : Life) (a b : List Eff) :
    Life.along id l (a ++ b) = (Life.along id l a).bind (fun l' => Life.along id l' b) := by
  induction a generalizing l with
  | nil => rfl
  | cons x xs ih =>
    simp only [List.cons_append, Life.along]
    cases l.step id x with
    | none => rfl
    | some l' => exact ih l'

theorem along_nil (id : Nat) (l : Life) : Life.along id l [] = some l := rfl

theorem along_freeOpt (id : Nat) (l : Life) (r : Option Ref) (es : List Eff) :
    Life.along id l (freeOpt r ++ es) =
      if oid r = some id then (if l = .live then Life.along id .dead es else none)
      else Life.along id l es := by
  cases r with
  | none => simp [freeOpt]
  | some r =>
    simp only [freeOpt, List.cons_append, List.nil_append, Life.along, Life.step, oid_some,
      Option.some.injEq]
    by_cases h : r.id = id <;> by_cases h' : l = .live <;> simp [h, h']

theorem along_freeOpt' (id : Nat) (l : Life) (r : Option Ref) :
    Life.along id l (freeOpt r) =
      if oid r = some id then (if l = .live then some .dead else none) else some l := by
  rw [← List.append_nil (freeOpt r), along_freeOpt]
  rfl

theorem along_cb (id : Nat) (l : Life) (c : Cb) (r : Option Ref) (es : List Eff) :
    Life.along id l (.cb c r :: es) =
      if oid r = some id ∧ l ≠ .live then none else Life.along id l es := by
  cases r with
  | none => simp [Life.along, Life.step]
  | some r =>
    simp only [Life.along, Life.step, oid_some, Option.some.injEq]
    by_cases h : r.id = id <;> by_cases h' : l = .live <;> simp [h, h']

theorem along_send (id : Nat) (l : Life) (r : Ref) (h p) (es : List Eff) :
    Life.along id l (.send r h p :: es) =
      if r.id = id ∧ l ≠ .live then none else Life.along id l es := by
  simp only [Life.along, Life.step]
  by_cases h : r.id = id <;> by_cases h' : l = .live <;> simp [h, h']

theorem along_new (id : Nat) (l : Life) (i : Nat) (es : List Eff) :
    Life.along id l (.newMsg i :: es) =
      if i = id then (if l = .unborn then Life.along id .live es else none)
      else Life.along id l es := by
  simp only [Life.along, Life.step]
  by_cases h : i = id <;> by_cases h' : l = .unborn <;> simp [h, h']

theorem along_free (id : Nat) (l : Life) (i : Nat) (es : List Eff) :
    Life.along id l (.freeMsg i :: es) =
      if i = id then (if l = .live then Life.along id .dead es else none)
      else Life.along id l es := by
  simp only [Life.along, Life.step]
  by_cases h : i = id <;> by_cases h' : l = .live <;> simp [h, h']

theorem along_tpErr (id : Nat) (l : Life) (k i) (es : List Eff) :
    Life.along id l (.tpErr k i :: es) = Life.along id l es := rfl
theorem along_kill (id : Nat) (l : Life) (k) (es : List Eff) :
    Life.along id l (.kill k :: es) = Life.along id l es := rfl

/-- The transaction holds address `id`. -/
def Held (t : Tr) (id : Nat) : Prop :=
  oid t.orig_request = some id ∨ oid t.last_response = some id ∨ oid t.ack = some id

/-- The pointers of the transaction are different. -/
def Apart (t : Tr) : Prop :=
  ∀ id, (oid t.orig_request = some id → oid t.last_response ≠ some id ∧ oid t.ack ≠ some id) ∧
    (oid t.last_response = some id → oid t.ack ≠ some id)

theorem dropMsg_eq {ev : Ev} (hev : EvOk ev) : dropMsg ev = freeOpt ev.sip ++ [] := by
  unfold dropMsg EvOk at *
  split
  · simp
  · next h =>
    split at hev
    · next h' => simp [h', freeOpt]
    · next r h' =>
      obtain ⟨-, h2 | h2⟩ := hev <;> rw [h2] at h <;> exfalso <;> apply h
      · simp only [evt_type_incoming]; repeat' split
        all_goals rfl
      · simp only [evt_type_outgoing]; repeat' split
        all_goals rfl

theorem timer_none {ev : Ev} (hev : EvOk ev) (h : ev.type.isMsg = false) : ev.sip = none := by
  have := dropMsg_eq hev
  unfold dropMsg at this
  rw [h] at this
  cases hs : ev.sip with
  | none => rfl
  | some r => simp [hs, freeOpt] at this

/-- One executed event, seen by one address. -/
def OwnStep (fresh : Nat) (t : Tr) (ev : Ev) (t' : Tr) (e : List Eff) (id : Nat) : Prop :=
  ∀ l, (l = .live ↔ Held t id ∨ oid ev.sip = some id) → (id = fresh → l = .unborn) →
    Life.along id l e ≠ none ∧ (Life.along id l e = some .live ↔ Held t' id) ∧
      (l = .unborn → id ≠ fresh → Life.along id l e = some .unborn)

macro "own_paths" he:ident hk:ident hd:ident htn:ident : tactic => `(tactic| (
  fsm_exec $he:ident $hk:ident hs ht
  fsm_prune hs
  all_goals unfold OwnStep
  all_goals intro l hl hf
  all_goals unfold Held Apart at *
  all_goals try rw [$hd:ident]
  all_goals simp only [List.cons_append, List.nil_append, List.append_assoc, List.append_nil,
    along_freeOpt, along_freeOpt', along_cb, along_send, along_new, along_free, along_tpErr, along_kill, along_nil]
  all_goals try (have htn' := $htn:ident (by rw [ht]; rfl); simp only [htn', oid_none] at *)
  all_goals grind (splits := 20) [oid_some, oid_none]))

theorem own_ict {env t ev t' e r id} (hk : t.ctx_type = .ICT) (hev : EvOk ev) (hi : IctInv t)
    (ha : Apart t) (hq : ∀ id, oid ev.sip = some id → ¬ Held t id)
    (he : osip_transaction_execute env t ev = some (t', e, r)) :
    OwnStep env.fresh t ev t' e id := by
  have h1 := hi.pre
  have h2 := hi.noack
  have ha := ha id
  have hq := hq id
  have hd := dropMsg_eq hev
  have htn := timer_none hev
  own_paths he hk hd htn

theorem own_nict {env t ev t' e r id} (hk : t.ctx_type = .NICT) (hev : EvOk ev) (hi : NictInv t)
    (ha : Apart t) (hq : ∀ id, oid ev.sip = some id → ¬ Held t id)
    (he : osip_transaction_execute env t ev = some (t', e, r)) :
    OwnStep env.fresh t ev t' e id := by
  have h1 := hi.pre
  have h2 := hi.ack
  have ha := ha id
  have hq := hq id
  have hd := dropMsg_eq hev
  have htn := timer_none hev
  own_paths he hk hd htn

theorem own_ist {env t ev t' e r id} (hk : t.ctx_type = .IST) (hev : EvOk ev) (hi : IstInv t)
    (ha : Apart t) (hq : ∀ id, oid ev.sip = some id → ¬ Held t id)
    (he : osip_transaction_execute env t ev = some (t', e, r)) :
    OwnStep env.fresh t ev t' e id := by
  have h1 := hi.pre
  have h2 := hi.noack
  have ha := ha id
  have hq := hq id
  have hd := dropMsg_eq hev
  have htn := timer_none hev
  own_paths he hk hd htn

theorem own_nist {env t ev t' e r id} (hk : t.ctx_type = .NIST) (hev : EvOk ev) (hi : NistInv t)
    (ha : Apart t) (hq : ∀ id, oid ev.sip = some id → ¬ Held t id)
    (he : osip_transaction_execute env t ev = some (t', e, r)) :
    OwnStep env.fresh t ev t' e id := by
  have h1 := hi.pre
  have h2 := hi.ack
  have ha := ha id
  have hq := hq id
  have hd := dropMsg_eq hev
  have htn := timer_none hev
  own_paths he hk hd htn

/-- The pointers stay different and hold only known or new addresses. -/
def ApartStep (fresh : Nat) (t : Tr) (ev : Ev) (t' : Tr) : Prop :=
  Apart t' ∧ ∀ id, Held t' id → Held t id ∨ oid ev.sip = some id ∨ id = fresh

theorem apart_exec {env t ev t' e r} (hev : EvOk ev) (ha : Apart t)
    (hq : ∀ id, oid ev.sip = some id → ¬ Held t id)
    (hf : ¬ Held t env.fresh ∧ oid ev.sip ≠ some env.fresh)
    (he : osip_transaction_execute env t ev = some (t', e, r)) :
    ApartStep env.fresh t ev t' := by
  unfold ApartStep Held Apart at *
  cases hk : t.ctx_type
  all_goals
    fsm_exec he hk hs ht
    fsm_prune hs
    all_goals try (exact ⟨ha, fun id h => .inl h⟩)
    all_goals refine ⟨fun id => ?_, fun id => ?_⟩
    all_goals (
      have ha := ha id
      have hq := hq id
      dsimp only
      grind (splits := 20) [oid_some, oid_none])

/-- Executing an event does not touch other addresses. -/
theorem untouched {env t ev t' e r id} (hev : EvOk ev) (h1 : ¬ Held t id)
    (h2 : oid ev.sip ≠ some id) (h3 : id ≠ env.fresh)
    (he : osip_transaction_execute env t ev = some (t', e, r)) (l : Life) :
    Life.along id l e = some l := by
  have hd := dropMsg_eq hev
  have htn := timer_none hev
  unfold Held at *
  cases hk : t.ctx_type
  all_goals
    fsm_exec he hk hs ht
    fsm_prune hs
    all_goals try rw [hd]
    all_goals simp only [List.cons_append, List.nil_append, List.append_assoc, List.append_nil,
      along_freeOpt, along_freeOpt', along_cb, along_send, along_new, along_free, along_tpErr,
      along_kill, along_nil]
    all_goals try (have htn' := htn (by rw [ht]; rfl); simp only [htn', oid_none] at *)
    all_goals try (grind (splits := 20) [oid_some, oid_none])

/-- The addresses of the queued messages. -/
def qids (q : List Ev) : List Nat := q.filterMap (fun e => oid e.sip)

/-- Everything known about one address in a world. -/
structure Owner (w : World) : Prop where
  apart : Apart w.tr
  nodup : (qids w.queue).Nodup
  sep : ∀ id ∈ qids w.queue, ¬ Held w.tr id
  life : ∀ id, Life.along id .unborn w.trace ≠ none ∧
    (Life.along id .unborn w.trace = some .live ↔ Held w.tr id ∨ id ∈ qids w.queue) ∧
    (w.next ≤ id → Life.along id .unborn w.trace = some .unborn)

theorem owner_step {k : Kind} {w w' : World} {o : Op} (hre : Reach k w) (hi : Owner w)
    (hs : w.step o = some w') : Owner w' := by
  obtain ⟨ha, hn, hsep, hl⟩ := hi
  rcases step_cases hs with ⟨q, rfl, hq⟩ | ⟨ev, m, hm, hok, _, rfl⟩ |
    ⟨_, _, _, ev, q, t, e, r, _, hqq, he, rfl⟩
  · have h0 : qids (w.queue ++ q) = qids w.queue := by
      have : q.filterMap (fun e => oid e.sip) = [] := by
        rw [List.filterMap_eq_nil_iff]
        intro e he
        simp [(hq e he).2]
      simp [qids, this]
    exact ⟨ha, by simpa [h0] using hn, by simpa [h0] using hsep, by simpa [h0] using hl⟩
  · have h0 : qids (w.queue ++ [ev]) = qids w.queue ++ [w.next] := by
      simp [qids, hm]
    have hfresh : ¬ Held w.tr w.next ∧ w.next ∉ qids w.queue := by
      obtain ⟨-, h2, h3⟩ := hl w.next
      rw [h3 (Nat.le_refl _)] at h2
      simp at h2
      exact h2
    refine ⟨ha, ?_, ?_, ?_⟩
    · simp only [h0, List.nodup_append]
      refine ⟨hn, by simp, ?_⟩
      intro a h b hb
      simp at hb
      subst hb
      rintro rfl
      exact hfresh.2 h
    · simp only [h0, List.mem_append, List.mem_singleton]
      rintro id (h | rfl)
      · exact hsep id h
      · exact hfresh.1
    · intro id
      obtain ⟨h1, h2, h3⟩ := hl id
      simp only [along_append, h0, List.mem_append, List.mem_singleton]
      cases hc : Life.along id .unborn w.trace with
      | none => exact absurd hc h1
      | some l =>
        rw [hc] at h2 h3
        simp only [Option.bind_some, along_new, along_nil]
        by_cases hid : w.next = id
        · subst hid
          have := h3 (Nat.le_refl _)
          simp at this
          simp [this]
        · simp only [hid, if_false]
          refine ⟨by simp, ?_, fun h => h3 (by omega)⟩
          rw [h2]
          constructor
          · rintro (h | h)
            · exact .inl h
            · exact .inr (.inl h)
          · rintro (h | h | h)
            · exact .inl h
            · exact .inr h
            · exact absurd h.symm hid
  · have hk := reach_queue hre
    have hev := hk.2 ev (by simp [hqq])
    have hqe : ∀ id, id ∈ qids w.queue ↔ oid ev.sip = some id ∨ id ∈ qids q := by
      intro id
      rw [hqq]
      simp only [qids, List.filterMap_cons]
      cases h : oid ev.sip with
      | none => simp
      | some i => simp [eq_comm]
    have hnq : (qids q).Nodup ∧ ∀ id, oid ev.sip = some id → id ∉ qids q := by
      rw [hqq] at hn
      simp only [qids, List.filterMap_cons] at hn
      cases h : oid ev.sip with
      | none => rw [h] at hn; exact ⟨hn, by simp⟩
      | some i =>
        rw [h] at hn
        simp only [List.nodup_cons] at hn
        refine ⟨hn.2, ?_⟩
        intro id hid
        simp at hid
        subst hid
        exact hn.1
    have hq1 : ∀ id, oid ev.sip = some id → ¬ Held w.tr id :=
      fun id h => hsep id ((hqe id).2 (.inl h))
    have hfresh : ¬ Held w.tr w.next ∧ w.next ∉ qids w.queue := by
      obtain ⟨-, h2, h3⟩ := hl w.next
      rw [h3 (Nat.le_refl _)] at h2
      simp at h2
      exact h2
    have hstep := apart_exec hev ha hq1
      ⟨hfresh.1, fun h => hfresh.2 ((hqe _).2 (.inl h))⟩ he
    have hown : ∀ id, OwnStep w.next w.tr ev t e id := by
      intro id
      cases k
      · exact own_ict hk.1 hev (reach_ictInv hre) ha hq1 he
      · exact own_ist hk.1 hev (reach_istInv hre) ha hq1 he
      · exact own_nict hk.1 hev (reach_nictInv hre) ha hq1 he
      · exact own_nist hk.1 hev (reach_nistInv hre) ha hq1 he
    have hsep' : ∀ id ∈ qids q, ¬ Held t id := by
      intro id hid hh
      rcases hstep.2 id hh with h | h | h
      · exact hsep id ((hqe id).2 (.inr hid)) h
      · exact hnq.2 id h hid
      · change id = w.next at h
        subst h
        exact hfresh.2 ((hqe _).2 (.inr hid))
    refine ⟨hstep.1, hnq.1, hsep', ?_⟩
    intro id
    obtain ⟨h1, h2, h3⟩ := hl id
    simp only [along_append]
    cases hc : Life.along id .unborn w.trace with
    | none => exact absurd hc h1
    | some l =>
      rw [hc] at h2 h3
      simp only [Option.bind_some]
      by_cases hmem : id ∈ qids q
      · have hm := (hqe id).2 (.inr hmem)
        have hnf : id ≠ w.next := by
          rintro rfl
          exact hfresh.2 hm
        rw [untouched hev (hsep id hm) (fun h => hnq.2 id h hmem) hnf he]
        refine ⟨by simp, ?_, fun hle => h3 (by omega)⟩
        rw [h2]
        simp [hm, hmem]
      · have h4 := hown id l (by
          simp only [Option.some.injEq] at h2
          rw [h2, hqe]
          simp [hmem]) (by
          intro hid
          have := h3 (by omega)
          simpa using this)
        refine ⟨h4.1, by rw [h4.2.1]; simp [hmem], fun hle => ?_⟩
        have h5 := h3 (by omega)
        simp only [Option.some.injEq] at h5
        exact h4.2.2 h5 (by omega)

theorem reach_owner {k : Kind} {w : World} (h : Reach k w) : Owner w := by
  refine reachO_inv (I := Owner) ?_ (fun w o w' hre hi _ hs => owner_step hre hi hs) h
  intro n1 n2 req t hi
  obtain ⟨_, h1, h2, h3, _⟩ := init_shape hi
  constructor <;> simp [World.init, Apart, Held, qids, h1, h2, h3, Life.along]

theorem along_queue (id : Nat) (l : Life) (q : List Ev) (hn : (qids q).Nodup)
    (h : id ∈ qids q → l = .live) :
    Life.along id l (q.flatMap (fun e => freeOpt e.sip)) =
      some (if id ∈ qids q then .dead else l) := by
  induction q generalizing l with
  | nil => simp [qids, Life.along]
  | cons e q ih =>
    rw [List.flatMap_cons, along_freeOpt]
    cases hs : oid e.sip with
    | none =>
      have hq : qids (e :: q) = qids q := by simp [qids, hs]
      rw [hq] at hn h ⊢
      simp only [reduceCtorEq, if_false]
      exact ih l hn h
    | some i =>
      have hq : qids (e :: q) = i :: qids q := by simp [qids, hs]
      rw [hq] at hn h ⊢
      simp only [List.nodup_cons] at hn
      by_cases hid : i = id
      · subst hid
        have hl := h (by simp)
        simp only [if_true, hl]
        rw [ih _ hn.2 (fun h => absurd h hn.1)]
        simp [hn.1]
      · simp only [Option.some.injEq, hid, if_false, List.mem_cons]
        rw [ih l hn.2 (fun hm => h (by simp [hm]))]
        have : ¬ id = i := fun h => hid h.symm
        simp [this]

/-- **C14** (every transaction type, every history). No message is used - sent or passed to a
callback - or freed when it is not alive, and none is allocated at an address in use: along the
trace every address goes at most once from not allocated to alive to freed. -/
theorem c14_no_misuse {k : Kind} {w : World} (h : Reach k w) (id : Nat) :
    (Life.along id .unborn w.trace).isSome = true := by
  have := ((reach_owner h).life id).1
  cases hc : Life.along id .unborn w.trace with
  | none => exact absurd hc this
  | some l => rfl

/-- **C14** (every transaction type, every history, freed at any point, with events still queued).
After `osip_transaction_free2` no message is alive: nothing is leaked, and freeing misuses no
address either. -/
theorem c14_no_leak {k : Kind} {w : World} (h : Reach k w) (id : Nat) :
    Life.along id .unborn (w.trace ++ osip_transaction_free2 w.tr w.queue) = some .unborn ∨
    Life.along id .unborn (w.trace ++ osip_transaction_free2 w.tr w.queue) = some .dead := by
  obtain ⟨ha, hn, hsep, hl⟩ := reach_owner h
  obtain ⟨h1, h2, -⟩ := hl id
  have ha := ha id
  have hsep := hsep id
  unfold osip_transaction_free2
  simp only [along_append]
  cases hc : Life.along id .unborn w.trace with
  | none => exact absurd hc h1
  | some l =>
    rw [hc] at h2
    simp only [Option.bind_some]
    rw [along_queue id l w.queue hn (fun hm => by
      have := h2.2 (.inr hm); simpa using this)]
    simp only [Option.bind_some, along_freeOpt']
    unfold Held at *
    cases l
    all_goals grind

theorem along_counts (id : Nat) (es : List Eff) (l l' : Life) (h : Life.along id l es = some l') :
    (if l = .unborn then 0 else 1) + es.count (.newMsg id) = (if l' = .unborn then 0 else 1) ∧
    (if l = .dead then 1 else 0) + es.count (.freeMsg id) = (if l' = .dead then 1 else 0) := by
  induction es generalizing l with
  | nil => simp [Life.along] at h; subst h; simp
  | cons x xs ih =>
    simp only [Life.along] at h
    split at h
    · simp at h
    · next l1 hl1 =>
      have := ih l1 h
      simp only [List.count_cons]
      cases x with
      | newMsg i =>
        simp only [Life.step] at hl1
        by_cases hi : i = id
        · subst hi
          simp only [if_true] at hl1
          split at hl1 <;> simp at hl1
          subst hl1
          subst l
          simp at this ⊢
          omega
        · simp [hi] at hl1
          subst hl1
          simpa [hi] using this
      | freeMsg i =>
        simp only [Life.step] at hl1
        by_cases hi : i = id
        · subst hi
          simp only [if_true] at hl1
          split at hl1 <;> simp at hl1
          subst hl1
          subst l
          simp at this ⊢
          omega
        · simp [hi] at hl1
          subst hl1
          simpa [hi] using this
      | send r hh p =>
        have : l1 = l := by
          simp only [Life.step] at hl1
          repeat' split at hl1
          all_goals simp_all
        subst this
        simpa
      | cb c r =>
        have : l1 = l := by
          cases r <;> simp only [Life.step] at hl1
          all_goals repeat' split at hl1
          all_goals simp_all
        subst this
        simpa
      | tpErr a b =>
        simp only [Life.step, Option.some.injEq] at hl1
        subst hl1
        simpa
      | kill a =>
        simp only [Life.step, Option.some.injEq] at hl1
        subst hl1
        simpa

/-- **C14**, by counting: at the end every address was freed exactly as often as it was allocated,
at most once. -/
theorem c14_freed_exactly_once {k : Kind} {w : World} (h : Reach k w) (id : Nat) :
    (w.trace ++ osip_transaction_free2 w.tr w.queue).count (.freeMsg id) =
      (w.trace ++ osip_transaction_free2 w.tr w.queue).count (.newMsg id) ∧
    (w.trace ++ osip_transaction_free2 w.tr w.queue).count (.newMsg id) ≤ 1 := by
  rcases c14_no_leak h id with h1 | h1
  · have := along_counts _ _ _ _ h1
    simp at this ⊢
    omega
  · have := along_counts _ _ _ _ h1
    simp at this ⊢
    omega

/-- An INVITE client transaction with an ACK, freed with a response and a timer event queued: six
messages, all freed. -/
example : (Ex.go .ICT Ex.invite (Ex.ictRun ++
      [.incoming (Ex.response 486 "UDP" "INVITE"), .timer .TIMEOUT_A])).map (fun w =>
      ((w.trace.filter (fun | .newMsg _ => true | _ => false)).length,
        (w.trace.filter (fun | .freeMsg _ => true | _ => false)).length,
        (osip_transaction_free2 w.tr w.queue).length)) = some (6, 2, 4) := by decide +kernel

end Osip
