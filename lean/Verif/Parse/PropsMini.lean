import Verif.Parse.Mini
import Verif.Parse.PropsAlike
import Verif.Parse.PropsStableMessage

/-!
# C136: A library compiled with `MINISIZE` reads the same messages
-/

set_option autoImplicit false

namespace Osip

/-! ## Specification -/

/-- The header that only the full library has a setter for, by the name of an entry of the list of other headers. -/
def fullKind (h : Header) : Option Setter :=
  h.hname.bind fun n => (supportedFull.find? fun x => decide (x.1.toList = n)).map (·.2.1)

/-- The setters that only the full library has. -/
def FullOnly (k : Setter) : Prop := k ∈ supportedFull.map (·.2.1)

instance (k : Setter) : Decidable (FullOnly k) := by unfold FullOnly; infer_instance

/-- What the setter of the full library makes of a value. -/
def madeOf (sscanf : Str → Option Nat) (k : Setter) (v : Option Str) : List HeaderVal :=
  match callSetter sscanf k {} v with
  | some (_, x) => x.hdr k
  | none => []

/-- What the two libraries have read: `m` the full one, `m'` the small one. -/
structure SameRead (sscanf : Str → Option Nat) (m m' : SipMessage) : Prop where
  start : m'.start = m.start
  /-- the headers both have a setter for -/
  common : ∀ k, ¬ FullOnly k → m'.hdr k = m.hdr k
  bodies : m'.bodies = m.bodies
  /-- the headers neither has a setter for, in their order -/
  others : m.headers = m'.headers.filter fun h => (fullKind h).isNone
  /-- the other headers: the full library has what its setters make of what the small one has, in this order -/
  made : ∀ k, FullOnly k → m'.hdr k = [] ∧
    m.hdr k = (m'.headers.filter fun h => fullKind h = some k).flatMap fun h => madeOf sscanf k h.hvalue

/-! ## The setters -/

/-- While headers are read. -/
structure MiniAlike (m m' : SipMessage) : Prop where
  start : m'.start = m.start
  common : ∀ k, ¬ FullOnly k → m'.hdr k = m.hdr k
  bodies : m'.bodies = m.bodies

/-- What a header may change. -/
structure Grown (sscanf : Str → Option Nat) (m m' x x' : SipMessage) : Prop where
  alike : MiniAlike x x'
  strong : SameRead sscanf m m' → SameRead sscanf x x'

theorem setter_alike {sscanf : Str → Option Nat} {k : Setter} {m m' x : SipMessage} {v : Option Str} {i : Int}
    (h : callSetter sscanf k m v = some (i, x)) (hk : ¬ FullOnly k) (hs : MiniAlike m m') :
    ∃ x', callSetter sscanf k m' v = some (i, x') ∧ Grown sscanf m m' x x' := by
  have hl := hs.common k hk
  have hsame : ∀ {y y' : SipMessage}, y.start = m.start → y'.start = m'.start → y.hdr = m.hdr → y'.hdr = m'.hdr → y.headers = m.headers →
      y'.headers = m'.headers → y.bodies = m.bodies → y'.bodies = m'.bodies → Grown sscanf m m' y y' := by
    intro y y' a1 a2 a3 a4 a5 a6 a7 a8
    refine ⟨⟨by rw [a1, a2]; exact hs.start, by rw [a3, a4]; exact hs.common, by rw [a7, a8]; exact hs.bodies⟩, fun hR => ?_⟩
    exact ⟨by rw [a1, a2]; exact hs.start, by rw [a3, a4]; exact hs.common, by rw [a7, a8]; exact hs.bodies, by rw [a5, a6]; exact hR.others,
      by rw [a3, a4, a6]; exact hR.made⟩
  have hadd : ∀ {y y' : SipMessage} (z : HeaderVal), y.start = m.start → y'.start = m'.start → y.hdr = m.hdr → y'.hdr = m'.hdr → y.headers = m.headers →
      y'.headers = m'.headers → y.bodies = m.bodies → y'.bodies = m'.bodies → Grown sscanf m m' (y.add k z) (y'.add k z) := by
    intro y y' z a1 a2 a3 a4 a5 a6 a7 a8
    have hc : ∀ j, ¬ FullOnly j → (y'.add k z).hdr j = (y.add k z).hdr j := by
      intro j hj
      simp only [SipMessage.add, a3, a4]
      split
      · rw [hl]
      · exact hs.common j hj
    refine ⟨⟨by simp only [SipMessage.add, a1, a2]; exact hs.start, hc, by simp only [SipMessage.add, a7, a8]; exact hs.bodies⟩, fun hR => ?_⟩
    refine ⟨by simp only [SipMessage.add, a1, a2]; exact hs.start, hc, by simp only [SipMessage.add, a7, a8]; exact hs.bodies,
      by simp only [SipMessage.add, a5, a6]; exact hR.others, fun j hj => ?_⟩
    have hne : j ≠ k := fun e => hk (e ▸ hj)
    simp only [SipMessage.add, a3, a4, a6, if_neg hne]
    exact hR.made j hj
  unfold callSetter at h ⊢
  simp only [Option.bind_eq_bind, Option.pure_def, hl] at h ⊢
  split at h
  · rename_i c
    rw [if_pos c]
    simp only [Option.some.injEq, Prod.mk.injEq] at h
    obtain ⟨rfl, rfl⟩ := h
    exact ⟨_, rfl, hsame rfl rfl rfl rfl rfl rfl rfl rfl⟩
  rename_i c
  rw [if_neg c]
  split at h
  · rename_i c
    rw [if_pos c]
    simp only [Option.some.injEq, Prod.mk.injEq] at h
    obtain ⟨rfl, rfl⟩ := h
    exact ⟨_, rfl, hsame rfl rfl rfl rfl rfl rfl rfl rfl⟩
  rename_i c
  rw [if_neg c]
  split at h
  · split at h
    · rename_i c
      rw [if_pos c]
      simp only [Option.some.injEq, Prod.mk.injEq] at h
      obtain ⟨rfl, rfl⟩ := h
      exact ⟨_, rfl, hsame rfl rfl rfl rfl rfl rfl rfl rfl⟩
    · rename_i c
      rw [if_neg c]
      simp only [Option.bind_eq_some_iff] at h
      obtain ⟨⟨j, z⟩, h1, h2⟩ := h
      simp only [h1, Option.bind_some]
      split at h2
      · rename_i c
        rw [if_pos c]
        simp only [Option.some.injEq, Prod.mk.injEq] at h2
        obtain ⟨rfl, rfl⟩ := h2
        exact ⟨_, rfl, hsame rfl rfl rfl rfl rfl rfl rfl rfl⟩
      · rename_i c
        rw [if_neg c]
        simp only [Option.some.injEq, Prod.mk.injEq] at h2
        obtain ⟨rfl, rfl⟩ := h2
        exact ⟨_, rfl, hadd (y := { m with cached := none }) (y' := { m' with cached := none }) z rfl rfl rfl rfl rfl rfl rfl rfl⟩
  · simp only [Option.bind_eq_some_iff] at h
    obtain ⟨⟨j, z⟩, h1, h2⟩ := h
    simp only [h1, Option.bind_some]
    split at h2
    · rename_i c
      rw [if_pos c]
      simp only [Option.some.injEq, Prod.mk.injEq] at h2
      obtain ⟨rfl, rfl⟩ := h2
      exact ⟨_, rfl, hsame rfl rfl rfl rfl rfl rfl rfl rfl⟩
    · rename_i c
      rw [if_neg c]
      simp only [Option.some.injEq, Prod.mk.injEq] at h2
      obtain ⟨rfl, rfl⟩ := h2
      exact ⟨_, rfl, hadd z rfl rfl rfl rfl rfl rfl rfl rfl⟩

theorem fullOnly_list {k : Setter} (h : FullOnly k) : presentCode k = none ∧ k ≠ .content_type := by
  revert h; cases k <;> decide

/-- A setter that only the full library has. -/
theorem setter_full {sscanf : Str → Option Nat} {k : Setter} {m x : SipMessage} {v : Option Str} {i : Int}
    (h : callSetter sscanf k m v = some (i, x)) (hk : FullOnly k) :
    x.start = m.start ∧ x.headers = m.headers ∧ x.bodies = m.bodies ∧ x.hdr k = m.hdr k ++ madeOf sscanf k v ∧ ∀ j, j ≠ k → x.hdr j = m.hdr j := by
  obtain ⟨hp, hct⟩ := fullOnly_list hk
  unfold madeOf
  unfold callSetter at h ⊢
  simp only [Option.bind_eq_bind, Option.pure_def, hct, false_and, if_false, hp] at h ⊢
  split at h
  · next hc =>
    simp only [Option.some.injEq, Prod.mk.injEq] at h
    obtain ⟨rfl, rfl⟩ := h
    simp [hc]
  · next hc =>
    rw [if_neg hc]
    simp only [Option.bind_eq_some_iff] at h
    obtain ⟨⟨j, z⟩, h1, h2⟩ := h
    simp only [h1, Option.bind_some]
    split at h2
    · next hj =>
      simp only [Option.some.injEq, Prod.mk.injEq] at h2
      obtain ⟨rfl, rfl⟩ := h2
      simp [hj]
    · next hj =>
      simp only [Option.some.injEq, Prod.mk.injEq] at h2
      obtain ⟨rfl, rfl⟩ := h2
      rw [if_neg hj]
      refine ⟨rfl, rfl, rfl, by simp [SipMessage.add], ?_⟩
      intro j' hj'
      simp [SipMessage.add, hj']

/-! ## The tables -/

theorem mini_entries : ∀ e ∈ pconfig true, e ∈ pconfig false ∧ ¬ FullOnly e.setheader ∧
    fullKind ⟨some e.hname, none⟩ = none := by decide +kernel

theorem full_entries : ∀ e ∈ pconfig false, e ∈ pconfig true ∨
    (e.ignored_when_invalid = true ∧ FullOnly e.setheader ∧ fullKind ⟨some e.hname, none⟩ = some e.setheader ∧
      ∀ f ∈ pconfig true, f.hname ≠ e.hname) := by decide +kernel

theorem fullKind_known {n : Str} {k : Setter} {v : Option Str} (h : fullKind ⟨some n, v⟩ = some k) :
    ∃ e ∈ pconfig false, e.hname = n := by
  simp only [fullKind, Option.bind_some, Option.map_eq_some_iff] at h
  obtain ⟨x, h1, _⟩ := h
  have h2 := List.mem_of_find?_eq_some h1
  have h3 := List.find?_some h1
  simp only [decide_eq_true_eq] at h3
  obtain ⟨e, he, h4, _⟩ := (pconfig_supported false).2 n x.2.1 x.2.2 ⟨x.1, h3, .inr ⟨rfl, h2⟩⟩
  exact ⟨e, he, h4⟩

theorem mini_other {n : Str} (hn : n.Ok) {v : Option Str} (hv : ∀ s ∈ v, Handed s) :
    osip_message_set_header (some (Str.buf n)) (v.map Str.buf) = some (OSIP_SUCCESS, some ⟨some (trim n), v⟩) := by
  have e1 := clrncpy_at hn (b := []) (by decide) [] (n := n.length) rfl
  simp only [List.nil_append] at e1
  cases v with
  | none => simp only [osip_message_set_header, Str.buf, cstr_at hn, e1, Option.bind_eq_bind, Option.bind_some, Option.map_none]; rfl
  | some s =>
    obtain ⟨hs, ht⟩ := hv s rfl
    have e2 := clrncpy_at hs (b := []) (by decide) [] (n := s.length) rfl
    simp only [List.nil_append] at e2
    simp only [osip_message_set_header, Str.buf, cstr_at hn, cstr_at hs, e1, e2, Option.bind_eq_bind, Option.bind_some, Option.map_some]
    rw [show trim s = s from ht]
    rfl

/-- What both libraries do with one value. -/
theorem set_alike {sscanf : Str → Option Nat} {st : StartLine} (signed : Bool) {m m' : SipMessage} (h : Filled sscanf st m) (hs : MiniAlike m m') {n : Str}
    (hn : n.Ok) {v : Option Str} (hv : ∀ s ∈ v, Handed s) :
    ∃ i x x', message_set__header sscanf signed (theTable signed false) m n v = some (i, x) ∧
      mini_set__header sscanf signed (theTable signed true) m' n v = some (i, x') ∧ Filled sscanf st x ∧ MiniAlike x x' ∧
      (Trimmed n → SameRead sscanf m m' → SameRead sscanf x x') := by
  obtain ⟨i, x, h1, h2⟩ := set_header_total signed h hn hv
  refine ⟨i, x, ?_⟩
  simp only [h1, h2, true_and]
  obtain ⟨o, ho, hi⟩ := is_known_iff signed false n
  obtain ⟨o', ho', hi'⟩ := is_known_iff signed true n
  unfold message_set__header at h1
  unfold mini_set__header
  rw [ho] at h1
  rw [ho']
  have hset := mini_other hn hv
  simp only [Option.bind_eq_bind, Option.bind_some, Option.pure_def] at h1 ⊢
  -- no setter in the small library
  have hmini : ∀ (hno : o' = none), ∃ x', (match o' with
      | some i => ((pconfig true)[i]?).bind fun e => (callSetter sscanf e.setheader m' v).bind fun y =>
          some (if e.ignored_when_invalid = true then 0 else y.1, y.2)
      | none => (osip_message_set_header (some (Str.buf n)) (v.map Str.buf)).bind fun y =>
          if y.1 ≠ 0 then some (OSIP_SUCCESS, m')
          else y.2.bind fun h => some (OSIP_SUCCESS, { m' with headers := m'.headers ++ [h], cached := none })) =
      some (OSIP_SUCCESS, x') ∧ x' = { m' with headers := m'.headers ++ [⟨some (trim n), v⟩], cached := none } := by
    intro hno
    subst hno
    refine ⟨_, ?_, rfl⟩
    simp only [hset, Option.bind_some]
    rw [if_neg (by decide)]
  cases o with
  | some a =>
    obtain ⟨e, he, hen⟩ := (hi a).1 rfl
    have hem := List.mem_of_getElem? he
    simp only [he, Option.bind_some, Option.bind_eq_some_iff, Option.some.injEq, Prod.mk.injEq] at h1
    obtain ⟨⟨j, y⟩, q1, rfl, rfl⟩ := h1
    rcases full_entries e hem with hsm | ⟨hig, hfo, hfk, hno⟩
    · obtain ⟨b, hb, hb'⟩ := List.getElem_of_mem hsm
      have hb2 : (pconfig true)[b]? = some e := by rw [← hb']; exact List.getElem?_eq_getElem hb
      have := (hi' b).2 ⟨e, hb2, hen⟩
      subst this
      obtain ⟨_, hk, _⟩ := mini_entries e hsm
      obtain ⟨x', q2, q3⟩ := setter_alike q1 hk hs
      exact ⟨x', by simp [hb2, q2], q3.alike, fun _ => q3.strong⟩
    · have hno' : o' = none := by
        cases o' with
        | none => rfl
        | some b =>
          obtain ⟨f, hf, hfn⟩ := (hi' b).1 rfl
          exact absurd (hfn.trans hen.symm) (hno f (List.mem_of_getElem? hf))
      obtain ⟨x', q2, rfl⟩ := hmini hno'
      obtain ⟨s1, s2, s3, s4, s5⟩ := setter_full q1 hfo
      have hal : MiniAlike y { m' with headers := m'.headers ++ [⟨some (trim n), v⟩], cached := none } := by
        refine ⟨by rw [s1]; exact hs.start, ?_, by rw [s3]; exact hs.bodies⟩
        intro k hk
        rw [s5 k (fun e' => hk (e' ▸ hfo))]
        exact hs.common k hk
      refine ⟨_, ?_, hal, ?_⟩
      · rw [if_pos hig]; exact q2
      · intro ht hR
        have hkind : fullKind ⟨some (trim n), v⟩ = some e.setheader := by
          rw [show trim n = n from ht, ← hen]; exact hfk
        refine ⟨hal.start, hal.common, hal.bodies, ?_, ?_⟩
        · rw [s2, hR.others]
          simp [List.filter_append, hkind]
        · intro k hk
          obtain ⟨r1, r2⟩ := hR.made k hk
          refine ⟨r1, ?_⟩
          by_cases hke : k = e.setheader
          · subst hke
            rw [s4, r2]
            simp [List.filter_append, hkind]
          · rw [s5 k hke, r2]
            have : ¬ (fullKind ⟨some (trim n), v⟩ = some k) := by
              rw [hkind]; intro h0; cases h0; exact hke rfl
            simp [List.filter_append, this]
  | none =>
    have hno' : o' = none := by
      cases o' with
      | none => rfl
      | some b =>
        obtain ⟨f, hf, hfn⟩ := (hi' b).1 rfl
        obtain ⟨q, _⟩ := mini_entries f (List.mem_of_getElem? hf)
        obtain ⟨c, hc, hc'⟩ := List.getElem_of_mem q
        have := (hi c).2 ⟨f, by rw [← hc']; exact List.getElem?_eq_getElem hc, hfn⟩
        cases this
    obtain ⟨x', q2, rfl⟩ := hmini hno'
    simp only [hset, Option.bind_some] at h1
    rw [if_neg (by decide)] at h1
    simp only [Option.some.injEq, Prod.mk.injEq] at h1
    obtain ⟨rfl, rfl⟩ := h1
    have hal : MiniAlike { m with headers := m.headers ++ [⟨some (trim n), v⟩], cached := none }
        { m' with headers := m'.headers ++ [⟨some (trim n), v⟩], cached := none } := ⟨hs.start, hs.common, hs.bodies⟩
    refine ⟨_, q2, hal, fun ht hR => ?_⟩
    have hkind : fullKind ⟨some (trim n), v⟩ = none := by
      rw [show trim n = n from ht]
      cases hk : fullKind ⟨some n, v⟩ with
      | none => rfl
      | some k =>
        obtain ⟨e, he, hen⟩ := fullKind_known hk
        obtain ⟨c, hc, hc'⟩ := List.getElem_of_mem he
        have := (hi c).2 ⟨e, by rw [← hc']; exact List.getElem?_eq_getElem hc, hen⟩
        cases this
    refine ⟨hs.start, hs.common, hs.bodies, ?_, ?_⟩
    · simp only [hR.others, List.filter_append]
      simp [hkind]
    · intro k hk
      obtain ⟨r1, r2⟩ := hR.made k hk
      refine ⟨r1, ?_⟩
      simp only [r2, List.filter_append]
      simp [hkind]

/-! ## The values of a line -/

theorem stored_mem (f : List Str → Str → Int) (vs : List Str) : ∀ acc, ∀ v ∈ acc, v ∈ (storeAll f acc vs).2 := by
  induction vs with
  | nil => intro acc v h; exact h
  | cons x vs ih =>
    intro acc v h
    unfold storeAll
    split
    · exact List.mem_cons_of_mem _ h
    · exact ih _ v (List.mem_cons_of_mem _ h)

/-- A relation kept by both setters is kept over the values of a line, and the same values are handed over. -/
theorem values_alike {R : SipMessage → SipMessage → Prop} {set set' : SipMessage → Option Str → Option (Int × SipMessage)}
    (hset : ∀ m m' v, R m m' → Handed v → ∃ i x x', set m (some v) = some (i, x) ∧ set' m' (some v) = some (i, x') ∧ R x x') {m m' : SipMessage}
    (vs : List Str) : ∀ acc y y', setValues set m acc.reverse = some y → setValues set' m' acc.reverse = some y' → R y y' →
      (∀ v ∈ (storeAll (valueCode set m) acc vs).2, Handed v) →
      storeAll (valueCode set' m') acc vs = storeAll (valueCode set m) acc vs ∧
      ∃ x x', setValues set m (storeAll (valueCode set m) acc vs).2.reverse = some x ∧
        setValues set' m' (storeAll (valueCode set m) acc vs).2.reverse = some x' ∧ R x x' := by
  induction vs with
  | nil => intro acc y y' h1 h2 h3 _; exact ⟨rfl, y, y', h1, h2, h3⟩
  | cons v vs ih =>
    intro acc y y' h1 h2 h3 h4
    have hv : Handed v := by
      apply h4
      unfold storeAll
      split
      · simp
      · exact stored_mem _ _ _ _ (by simp)
    obtain ⟨i, x, x', q1, q2, q3⟩ := hset y y' v h3 hv
    have c1 : valueCode set m acc v = i := by simp [valueCode, h1, q1]
    have c2 : valueCode set' m' acc v = i := by simp [valueCode, h2, q2]
    have e1 : setValues set m (v :: acc).reverse = some x := by
      rw [List.reverse_cons, setValues_append, h1]; simp [setValues, q1]
    have e2 : setValues set' m' (v :: acc).reverse = some x' := by
      rw [List.reverse_cons, setValues_append, h2]; simp [setValues, q2]
    simp only [storeAll, c1, c2] at h4 ⊢
    by_cases hi : i ≠ 0
    · simp only [if_pos hi, true_and]
      exact ⟨x, x', e1, e2, q3⟩
    · simp only [if_neg hi] at h4 ⊢
      exact ih (v :: acc) x x' e1 e2 q3 h4

theorem trimmed_lower {n : Str} (ht : Trimmed n) : Trimmed (lower n) := by
  by_cases h0 : n = []
  · subst h0; rfl
  · obtain ⟨a, z, m, m', e1, e2, ha, hz⟩ := trimmed_ends ht h0
    have f1 : lower n = a.toLower :: lower m := by rw [e1]; rfl
    have f2 : lower n = lower m' ++ [z.toLower] := by rw [e2]; simp [lower]
    exact trimmed_of (lower_blank ha) (lower_blank hz) f1 f2

/-- What both libraries do with a header line. -/
theorem line_alike {sscanf : Str → Option Nat} {st : StartLine} (signed : Bool) {m m' : SipMessage} (h : Filled sscanf st m) (hs : MiniAlike m m') {n : Str}
    (hn : n.Ok) {v : Option Str} (hv : ∀ s ∈ v, Handed s) :
    ∃ i x x', message_set_multiple sscanf signed (theTable signed false) m n v = some (i, x) ∧
      mini_set_multiple sscanf signed (theTable signed true) m' n v = some (i, x') ∧ Filled sscanf st x ∧ MiniAlike x x' ∧
      (Trimmed n → SameRead sscanf m m' → SameRead sscanf x x') := by
  have hl := lower_ok hn
  unfold message_set_multiple mini_set_multiple
  rw [Str.buf, c57_tolower hn]
  simp only [Option.bind_eq_bind, Option.bind_some, cstr_at hl, Option.pure_def]
  cases v with
  | none =>
    obtain ⟨i, x, x', q1, q2, q3, q4, q5⟩ := set_alike signed h hs hl hv
    exact ⟨i, x, x', q1, q2, q3, q4, fun ht => q5 (trimmed_lower ht)⟩
  | some s =>
    obtain ⟨hso, ht⟩ := hv s rfl
    obtain ⟨vs, hvs⟩ := multiple_store (lower n) hso []
    have e := hvs (lower n) Iff.rfl
    simp only [Str.buf, e, Option.bind_some]
    have hh : ∀ v ∈ (storeAll (valueCode (fun m v => message_set__header sscanf signed (theTable signed false) m (lower n) v) m) [] vs).2, Handed v := by
      have e' := e (valueCode (fun m v => message_set__header sscanf signed (theTable signed false) m (lower n) v) m)
      unfold set_multiple_header at e'
      simp only [Option.bind_eq_bind, Option.bind_eq_some_iff] at e'
      obtain ⟨o, _, e'⟩ := e'
      split at e'
      · simp only [cstr_at hso, Option.bind_some, Option.pure_def, Option.some.injEq] at e'
        intro v hv
        rw [← e'] at hv
        simp only [List.mem_singleton] at hv
        rw [hv]
        exact ⟨hso, ht⟩
      · obtain ⟨i, vals, k1, k2⟩ := split_values (valueCode (fun m v => message_set__header sscanf signed (theTable signed false) m (lower n) v) m) s (a := [])
          false false [] (by simp [Str.Ok]) hso (by simp) []
        simp only [List.nil_append] at k1
        rw [k1] at e'
        simp only [Option.some.injEq] at e'
        rw [← e']
        exact k2
    obtain ⟨k1, x, x', k2, k3, k4, k5, k6⟩ := values_alike (R := fun a b => Filled sscanf st a ∧ MiniAlike a b ∧
        (Trimmed n → SameRead sscanf m m' → SameRead sscanf a b))
      (set := fun m v => message_set__header sscanf signed (theTable signed false) m (lower n) v)
      (set' := fun m v => mini_set__header sscanf signed (theTable signed true) m (lower n) v) (m := m) (m' := m')
      (fun a b v hab hv => by
        obtain ⟨i, x, x', q1, q2, q3, q4, q5⟩ := set_alike signed hab.1 hab.2.1 hl (v := some v) (by simpa using hv)
        exact ⟨i, x, x', q1, q2, q3, q4, fun ht hR => q5 (trimmed_lower ht) (hab.2.2 ht hR)⟩)
      vs [] m m' rfl rfl ⟨h, hs, fun _ hR => hR⟩ hh
    simp only [k1, k2, k3, Option.bind_some]
    exact ⟨_, _, _, rfl, rfl, k4, k5, k6⟩

/-! ## The lines -/

/-- Both libraries at once. -/
def bothSet (sscanf : Str → Option Nat) (signed : Bool) (p : SipMessage × SipMessage) (n : Str) (v : Option Str) : Option (Int × (SipMessage × SipMessage)) :=
  (message_set_multiple sscanf signed (theTable signed false) p.1 n v).bind fun a =>
    (mini_set_multiple sscanf signed (theTable signed true) p.2 n v).bind fun b => if a.1 = b.1 then some (a.1, (a.2, b.2)) else none

theorem both_some {sscanf : Str → Option Nat} {signed : Bool} {p q : SipMessage × SipMessage} {n : Str} {v : Option Str} {i : Int}
    (h : bothSet sscanf signed p n v = some (i, q)) :
    message_set_multiple sscanf signed (theTable signed false) p.1 n v = some (i, q.1) ∧
      mini_set_multiple sscanf signed (theTable signed true) p.2 n v = some (i, q.2) := by
  simp only [bothSet, Option.bind_eq_some_iff] at h
  obtain ⟨⟨a, x⟩, h1, ⟨b, y⟩, h2, h3⟩ := h
  split at h3
  · next e =>
    simp only at e
    simp only [Option.some.injEq, Prod.mk.injEq] at h3
    obtain ⟨rfl, rfl⟩ := h3
    exact ⟨h1, e ▸ h2⟩
  · cases h3

theorem loop_image {σ τ : Type} (f : σ → τ) {set : σ → Str → Option Str → Option (Int × σ)} {set' : τ → Str → Option Str → Option (Int × τ)}
    (h : ∀ st a b i x, set st a b = some (i, x) → set' (f st) a b = some (i, f x)) (n : Nat) : ∀ st p i x b,
      headersLoop set n st p = some (i, x, b) → headersLoop set' n (f st) p = some (i, f x, b) := by
  induction n with
  | zero => intro st p i x b hh; cases hh
  | succ n ih =>
    intro st p i x b hh
    unfold headersLoop at hh ⊢
    simp only [Option.bind_eq_bind, Option.pure_def, Option.bind_eq_some_iff] at hh
    obtain ⟨c, h1, hh⟩ := hh
    simp only [Option.bind_eq_bind, Option.pure_def, h1, Option.bind_some]
    split at hh
    · next hc => rw [if_pos hc]; simp only [Option.some.injEq, Prod.mk.injEq] at hh ⊢; grind
    next hc =>
    rw [if_neg hc]
    simp only [Option.bind_eq_some_iff] at hh
    obtain ⟨fo, h2, hh⟩ := hh
    simp only [h2, Option.bind_some]
    split at hh
    · next hc => rw [if_pos hc]; simp only [Option.some.injEq, Prod.mk.injEq] at hh ⊢; grind
    next hc =>
    rw [if_neg hc]
    split at hh
    · next hc => rw [if_pos hc]; simp only [Option.some.injEq, Prod.mk.injEq] at hh ⊢; grind
    next hc =>
    rw [if_neg hc]
    simp only [Option.bind_eq_some_iff] at hh
    obtain ⟨o, h3, hh⟩ := hh
    simp only [h3, Option.bind_some]
    cases o with
    | none => simp only [Option.some.injEq, Prod.mk.injEq] at hh ⊢; grind
    | some colon =>
      simp only at hh ⊢
      split at hh
      · next hc => rw [if_pos hc]; simp only [Option.some.injEq, Prod.mk.injEq] at hh ⊢; grind
      next hc =>
      rw [if_neg hc]
      split at hh
      · split at hh
        · next hc => rw [if_pos hc]; simp only [Option.some.injEq, Prod.mk.injEq] at hh ⊢; grind
        next hc =>
        simp only [if_neg hc]
        simp only [Option.bind_eq_some_iff] at hh
        obtain ⟨nm, h4, vl, h5, ⟨j, y⟩, h6, hh⟩ := hh
        simp only [h4, h5, h _ _ _ _ _ h6, Option.bind_some]
        split at hh
        · next hc => simp only [if_pos hc]; simp only [Option.some.injEq, Prod.mk.injEq] at hh ⊢; grind
        next hc =>
        simp only [if_neg hc]
        exact ih _ _ _ _ _ hh
      · simp only [Option.some.injEq, Prod.mk.injEq] at hh ⊢; grind

theorem part_handed {s tail : Str} {calls : List (Str × Option Str)} (h : HeaderPart s calls tail) (hs : s.Ok) :
    ∀ c ∈ calls, c.1.Ok ∧ Trimmed c.1 ∧ ∀ v ∈ c.2, Handed v := by
  induction h with
  | missing => intro c hc; cases hc
  | blank t _ => intro c hc; cases hc
  | @line a b e rest tail calls ha0 ha hb he h1 h2 h ih =>
    obtain ⟨p, rfl, _⟩ := eol_split he
    have hao := (ok_append_iff.1 hs).1
    have hbo := (ok_append_iff.1 (ok_cons.1 (ok_append_iff.1 hs).2).2)
    have hro := (ok_append_iff.1 hbo.2).2
    intro c hc
    rcases List.mem_cons.1 hc with rfl | hc
    · refine ⟨(trim_handed hao).1, (trim_handed hao).2, ?_⟩
      intro v hv
      simp only [lineValue] at hv
      split at hv
      · cases hv
      · cases hv
        exact trim_handed hbo.1
    · exact ih hro c hc

theorem calls_read {sscanf : Str → Option Nat} {st : StartLine} (signed : Bool) (calls : List (Str × Option Str))
    (hc : ∀ c ∈ calls, c.1.Ok ∧ Trimmed c.1 ∧ ∀ v ∈ c.2, Handed v) : ∀ p q : SipMessage × SipMessage, Filled sscanf st p.1 → MiniAlike p.1 p.2 →
      SameRead sscanf p.1 p.2 → applyAll (bothSet sscanf signed) p calls = some (OSIP_SUCCESS, q) → SameRead sscanf q.1 q.2 := by
  induction calls with
  | nil =>
    intro p q _ _ h ha
    simp only [applyAll, Option.some.injEq, Prod.mk.injEq, true_and] at ha
    exact ha ▸ h
  | cons c l ih =>
    intro p q hf hm h ha
    obtain ⟨n, v⟩ := c
    obtain ⟨h1, h2, h3⟩ := hc (n, v) (by simp)
    obtain ⟨i, x, x', q1, q2, q3, q4, q5⟩ := line_alike signed hf hm h1 h3
    have hb : bothSet sscanf signed p n v = some (i, (x, x')) := by simp [bothSet, q1, q2]
    simp only [applyAll, hb] at ha
    split at ha
    · simp [OSIP_SYNTAXERROR, OSIP_SUCCESS] at ha
    · exact ih (fun c hc' => hc c (by simp [hc'])) (x, x') q q3 q4 (q5 h2 h) ha

/-! ## The rest -/

theorem read_place {sscanf : Str → Option Nat} {m m' y y' : SipMessage} (h : SameRead sscanf m m') {k : Setter} (hk : ¬ FullOnly k)
    (h1 : y.start = m.start) (h1' : y'.start = m'.start) (h2 : y.headers = m.headers) (h2' : y'.headers = m'.headers)
    (h3 : y.bodies = m.bodies) (h3' : y'.bodies = m'.bodies) (h4 : ∀ j, j ≠ k → y.hdr j = m.hdr j) (h4' : ∀ j, j ≠ k → y'.hdr j = m'.hdr j)
    (h5 : y'.hdr k = y.hdr k) : SameRead sscanf y y' := by
  refine ⟨by rw [h1, h1', h.start], ?_, by rw [h3, h3', h.bodies], by rw [h2, h2', h.others], ?_⟩
  · intro j hj
    by_cases e : j = k
    · rw [e, h5]
    · rw [h4 j e, h4' j e, h.common j hj]
  · intro j hj
    have e : j ≠ k := fun e => hk (e ▸ hj)
    rw [h4 j e, h4' j e, h2']
    exact h.made j hj

theorem not_full : ¬ FullOnly .content_length ∧ ¬ FullOnly .content_type := by decide

theorem read_length {sscanf : Str → Option Nat} {m m' : SipMessage} (h : SameRead sscanf m m') : m'.contentLength = m.contentLength := by
  unfold SipMessage.contentLength
  rw [h.common _ not_full.1]

theorem read_type {sscanf : Str → Option Nat} {m m' : SipMessage} (h : SameRead sscanf m m') : m'.contentType = m.contentType := by
  unfold SipMessage.contentType
  rw [h.common _ not_full.2]

theorem read_default {sscanf : Str → Option Nat} {m m' : SipMessage} (h : SameRead sscanf m m') (v : Str) :
    SameRead sscanf (m.defaultLength v) (m'.defaultLength v) := by
  unfold SipMessage.defaultLength
  rw [read_length h]
  split
  · refine read_place h not_full.1 rfl rfl rfl rfl rfl rfl ?_ ?_ ?_
    · intro j hj; simp [SipMessage.add, hj]
    · intro j hj; simp [SipMessage.add, hj]
    · simp [SipMessage.add, h.common _ not_full.1]
  · exact h

theorem rest_read {sscanf : Str → Option Nat} {m m' x : SipMessage} {p : List Char} {i : Int} (h : SameRead sscanf m m')
    (hr : parseRest m p = some (i, x)) : ∃ x', parseRest m' p = some (i, x') ∧ SameRead sscanf x x' := by
  unfold parseRest at hr ⊢
  have h0 : SameRead sscanf
      (if m.contentLength = some none then { m with hdr := fun j => if j = .content_length then [] else m.hdr j } else m)
      (if m'.contentLength = some none then { m' with hdr := fun j => if j = .content_length then [] else m'.hdr j } else m') := by
    rw [read_length h]
    split
    · refine read_place h not_full.1 rfl rfl rfl rfl rfl rfl ?_ ?_ ?_
      · intro j hj; simp [hj]
      · intro j hj; simp [hj]
      · simp
    · exact h
  generalize (if m.contentLength = some none then { m with hdr := fun j => if j = .content_length then [] else m.hdr j } else m) = y at h0 hr
  generalize (if m'.contentLength = some none then { m' with hdr := fun j => if j = .content_length then [] else m'.hdr j } else m') = y' at h0 ⊢
  simp only [Option.bind_eq_bind, Option.pure_def, Option.bind_eq_some_iff] at hr
  obtain ⟨b, h1, hr⟩ := hr
  simp only [Option.bind_eq_bind, Option.pure_def, read_length h0, read_type h0, h1, Option.bind_some]
  split at hr
  · next hb =>
    rw [if_pos hb]
    simp only [Option.bind_eq_some_iff] at hr
    obtain ⟨⟨j, bodies, cl⟩, h2, hr⟩ := hr
    simp only [h2, Option.bind_some]
    have hz : ∀ z z' : SipMessage, SameRead sscanf z z' →
        SameRead sscanf { z with bodies := z.bodies ++ bodies, cached := none } { z' with bodies := z'.bodies ++ bodies, cached := none } := by
      intro z z' hz
      exact ⟨hz.start, hz.common, by simp only [hz.bodies], hz.others, hz.made⟩
    split at hr
    · next hj =>
      simp only [if_pos hj]
      simp only [Option.some.injEq, Prod.mk.injEq] at hr
      obtain ⟨rfl, rfl⟩ := hr
      refine ⟨_, rfl, hz _ _ ?_⟩
      cases cl with
      | none => exact h0
      | some v => exact read_default h0 v
    · next hj =>
      simp only [if_neg hj]
      simp only [Option.some.injEq, Prod.mk.injEq] at hr
      obtain ⟨rfl, rfl⟩ := hr
      refine ⟨_, rfl, read_default (hz _ _ ?_) _⟩
      cases cl with
      | none => exact h0
      | some v => exact read_default h0 v
  · next hb =>
    rw [if_neg hb]
    simp only [Option.some.injEq, Prod.mk.injEq] at hr
    obtain ⟨rfl, rfl⟩ := hr
    exact ⟨_, rfl, read_default h0 _⟩

theorem rest_defined {sscanf : Str → Option Nat} {m m' : SipMessage} {p : List Char} (h : SameRead sscanf m m')
    (hr : parseRest m p = none) : parseRest m' p = none := by
  unfold parseRest at hr ⊢
  have h0 : SameRead sscanf
      (if m.contentLength = some none then { m with hdr := fun j => if j = .content_length then [] else m.hdr j } else m)
      (if m'.contentLength = some none then { m' with hdr := fun j => if j = .content_length then [] else m'.hdr j } else m') := by
    rw [read_length h]
    split
    · refine read_place h not_full.1 rfl rfl rfl rfl rfl rfl ?_ ?_ ?_
      · intro j hj; simp [hj]
      · intro j hj; simp [hj]
      · simp
    · exact h
  generalize (if m.contentLength = some none then { m with hdr := fun j => if j = .content_length then [] else m.hdr j } else m) = y at h0 hr
  generalize (if m'.contentLength = some none then { m' with hdr := fun j => if j = .content_length then [] else m'.hdr j } else m') = y' at h0 ⊢
  simp only [Option.bind_eq_bind, Option.pure_def, read_length h0, read_type h0] at hr ⊢
  cases h1 : hasBody (y.contentLength.bind id) p (p.length - 1) with
  | none => rfl
  | some b =>
    simp only [h1, Option.bind_some] at hr ⊢
    cases b with
    | false => simp at hr
    | true =>
      simp only [if_true] at hr ⊢
      cases h2 : msg_osip_body_parse y.contentType (y.contentLength.bind id) p (p.length - 1) with
      | none => rfl
      | some q =>
        simp only [h2, Option.bind_some] at hr
        split at hr <;> cases hr

/-- The headers read by both libraries. -/
theorem headers_both (sscanf : Str → Option Nat) (signed : Bool) (sl : StartLine) {rest : Str} (hro : rest.Ok) (r : List Char) :
    (∃ x x', msg_headers_parse (message_set_multiple sscanf signed (theTable signed false)) { start := sl } (rest ++ NUL :: r) =
        some (OSIP_SYNTAXERROR, x, none) ∧
      msg_headers_parse (mini_set_multiple sscanf signed (theTable signed true)) { start := sl } (rest ++ NUL :: r) =
        some (OSIP_SYNTAXERROR, x', none)) ∨
    ∃ x x' b, msg_headers_parse (message_set_multiple sscanf signed (theTable signed false)) { start := sl } (rest ++ NUL :: r) =
        some (OSIP_SUCCESS, x, b) ∧
      msg_headers_parse (mini_set_multiple sscanf signed (theTable signed true)) { start := sl } (rest ++ NUL :: r) =
        some (OSIP_SUCCESS, x', b) ∧ SameRead sscanf x x' := by
  have hI : Filled sscanf sl { start := sl } := ⟨rfl, by simp, by simp, by simp, rfl, rfl⟩
  have hA : MiniAlike { start := sl } { start := sl } := ⟨rfl, fun _ _ => rfl, rfl⟩
  have hS : SameRead sscanf { start := sl } { start := sl } := ⟨rfl, fun _ _ => rfl, rfl, rfl, fun _ _ => ⟨rfl, rfl⟩⟩
  have himg1 : ∀ p i x b, msg_headers_parse (bothSet sscanf signed) ({ start := sl }, { start := sl }) p = some (i, x, b) →
      msg_headers_parse (message_set_multiple sscanf signed (theTable signed false)) { start := sl } p = some (i, x.1, b) :=
    fun p i x b hh => loop_image Prod.fst (fun st a b i x hx => (both_some hx).1) _ _ _ _ _ _ hh
  have himg2 : ∀ p i x b, msg_headers_parse (bothSet sscanf signed) ({ start := sl }, { start := sl }) p = some (i, x, b) →
      msg_headers_parse (mini_set_multiple sscanf signed (theTable signed true)) { start := sl } p = some (i, x.2, b) :=
    fun p i x b hh => loop_image Prod.snd (fun st a b i x hx => (both_some hx).2) _ _ _ _ _ _ hh
  rcases headers_kept (fun p : SipMessage × SipMessage => Filled sscanf sl p.1 ∧ MiniAlike p.1 p.2) (bothSet sscanf signed)
      (fun p a b hp ha hb => by
        obtain ⟨i, x, x', q1, q2, q3, q4, _⟩ := line_alike signed hp.1 hp.2 ha hb
        exact ⟨i, (x, x'), by simp [bothSet, q1, q2], q3, q4⟩) hro ({ start := sl }, { start := sl }) ⟨hI, hA⟩ r with
    ⟨m2, k2⟩ | ⟨calls, tail, m2, hp, hc, hI', k2⟩
  · exact .inl ⟨_, _, himg1 _ _ _ _ k2, himg2 _ _ _ _ k2⟩
  · exact .inr ⟨_, _, _, himg1 _ _ _ _ k2, himg2 _ _ _ _ k2,
      calls_read signed calls (part_handed hp hro) ({ start := sl }, { start := sl }) m2 hI hA hS hc⟩

/-! ## Property -/

/-- **C136.** The library compiled with `MINISIZE` accepts what the full library accepts, and refuses the rest with the same
result (or both run into undefined behaviour). Of a message that is accepted it has the same start line, the same headers of the
kinds it knows, the same bodies and the same other headers, among which it keeps the headers it does not know, with the values
from which the full library makes its structures. -/
theorem c136_same (sscanf : Str → Option Nat) (sscanfD : Str → Option Int) (signed : Bool) {t t' : List (Option Nat)}
    (ht : parser_init signed false = some t) (ht' : parser_init signed true = some t') (buf : List Char) :
    (osip_message_parse sscanf sscanfD signed t buf = none ∧ mini_message_parse sscanf sscanfD signed t' buf = none) ∨
    ∃ i m m', osip_message_parse sscanf sscanfD signed t buf = some (i, m) ∧
      mini_message_parse sscanf sscanfD signed t' buf = some (i, m') ∧ (i = OSIP_SUCCESS → SameRead sscanf m m') := by
  rw [parser_init_ok] at ht ht'
  cases ht
  cases ht'
  unfold osip_message_parse mini_message_parse
  simp only [skip_total, Option.bind_eq_bind, Option.bind_some]
  cases h1 : replace_all_lws (buf.dropWhile (fun c => c = '\r' ∨ c = '\n') ++ [NUL]) with
  | none => exact .inl ⟨rfl, rfl⟩
  | some d =>
  simp only [Option.bind_some]
  obtain ⟨tx, r, rfl, hto⟩ := mem_first (lws_nul _ h1 (by simp))
  rcases c74_start_line sscanf sscanfD hto r with ⟨sl', k⟩ | ⟨sl', rest, k, hl, -⟩
  · have hne : OSIP_SYNTAXERROR ≠ 0 := by decide
    simp only [k, Option.bind_some, if_pos hne, Option.pure_def]
    exact .inr ⟨_, _, _, rfl, rfl, fun e => absurd e hne⟩
  have hro : Str.Ok rest := by
    obtain ⟨w, hw⟩ : ∃ w, tx = w ++ rest := by
      rcases hl with ⟨m, w, v, e, u, rfl, he, _⟩ | ⟨v, c, reason, e, k, rfl, he, _⟩
      · obtain ⟨p, rfl, _⟩ := eol_split he
        exact ⟨m ++ ' ' :: (w ++ ' ' :: (v ++ p)), by simp⟩
      · obtain ⟨p, rfl, _⟩ := eol_split he
        exact ⟨v ++ ' ' :: (c ++ ' ' :: (reason ++ p)), by simp⟩
    rw [hw] at hto; exact (ok_append_iff.1 hto).2
  have he : ¬ (OSIP_SUCCESS ≠ 0) := by decide
  simp only [k, Option.bind_some, if_neg he]
  rcases headers_both sscanf signed sl' hro r with ⟨x, x', k1, k2⟩ | ⟨x, x', b, k1, k2, hR⟩
  · have hne : OSIP_SYNTAXERROR ≠ 0 := by decide
    simp only [k1, k2, Option.bind_some, if_pos hne, Option.pure_def]
    exact .inr ⟨_, _, _, rfl, rfl, fun e => absurd e hne⟩
  · simp only [k1, k2, Option.bind_some, if_neg he]
    cases h3 : parseRest x (b.getD (rest ++ NUL :: r)) with
    | none => exact .inl ⟨rfl, rest_defined hR h3⟩
    | some q =>
      obtain ⟨i, y⟩ := q
      obtain ⟨y', h4, h5⟩ := rest_read hR h3
      exact .inr ⟨_, _, _, rfl, h4, fun _ => h5⟩

/-- What follows the start line is read alike. -/
theorem after_start (sscanf : Str → Option Nat) (signed : Bool) (sl : StartLine) {rest : Str} (hro : rest.Ok) (r : List Char) :
    (((msg_headers_parse (message_set_multiple sscanf signed (theTable signed false)) { start := sl } (rest ++ NUL :: r)).bind fun q =>
        if q.1 ≠ 0 then some (q.1, q.2.1) else parseRest q.2.1 (q.2.2.getD (rest ++ NUL :: r))) = none ∧
      ((msg_headers_parse (mini_set_multiple sscanf signed (theTable signed true)) { start := sl } (rest ++ NUL :: r)).bind fun q =>
        if q.1 ≠ 0 then some (q.1, q.2.1) else parseRest q.2.1 (q.2.2.getD (rest ++ NUL :: r))) = none) ∨
    ∃ i m m', ((msg_headers_parse (message_set_multiple sscanf signed (theTable signed false)) { start := sl } (rest ++ NUL :: r)).bind fun q =>
        if q.1 ≠ 0 then some (q.1, q.2.1) else parseRest q.2.1 (q.2.2.getD (rest ++ NUL :: r))) = some (i, m) ∧
      ((msg_headers_parse (mini_set_multiple sscanf signed (theTable signed true)) { start := sl } (rest ++ NUL :: r)).bind fun q =>
        if q.1 ≠ 0 then some (q.1, q.2.1) else parseRest q.2.1 (q.2.2.getD (rest ++ NUL :: r))) = some (i, m') ∧
      (i = OSIP_SUCCESS → SameRead sscanf m m') := by
  have he : ¬ (OSIP_SUCCESS ≠ 0) := by decide
  have hne : OSIP_SYNTAXERROR ≠ 0 := by decide
  rcases headers_both sscanf signed sl hro r with ⟨x, x', k1, k2⟩ | ⟨x, x', b, k1, k2, hR⟩
  · simp only [k1, k2, Option.bind_some, if_pos hne]
    exact .inr ⟨_, _, _, rfl, rfl, fun e => absurd e hne⟩
  · simp only [k1, k2, Option.bind_some, if_neg he]
    cases h3 : parseRest x (b.getD (rest ++ NUL :: r)) with
    | none => exact .inl ⟨rfl, rest_defined hR h3⟩
    | some q =>
      obtain ⟨i, y⟩ := q
      obtain ⟨y', h4, h5⟩ := rest_read hR h3
      exact .inr ⟨_, _, _, rfl, h4, fun _ => h5⟩

/-- **C136**, fragments: the same for `osip_message_parse_sipfrag`. -/
theorem c136_fragment (sscanf : Str → Option Nat) (sscanfD : Str → Option Int) (signed : Bool) {t t' : List (Option Nat)}
    (ht : parser_init signed false = some t) (ht' : parser_init signed true = some t') (buf : List Char) :
    (osip_message_parse_sipfrag sscanf sscanfD signed t buf = none ∧ mini_message_parse_sipfrag sscanf sscanfD signed t' buf = none) ∨
    ∃ i m m', osip_message_parse_sipfrag sscanf sscanfD signed t buf = some (i, m) ∧
      mini_message_parse_sipfrag sscanf sscanfD signed t' buf = some (i, m') ∧ (i = OSIP_SUCCESS → SameRead sscanf m m') := by
  rw [parser_init_ok] at ht ht'
  cases ht
  cases ht'
  unfold osip_message_parse_sipfrag mini_message_parse_sipfrag
  simp only [skip_total, Option.bind_eq_bind, Option.bind_some]
  cases h1 : replace_all_lws (buf.dropWhile (fun c => c = '\r' ∨ c = '\n') ++ [NUL]) with
  | none => exact .inl ⟨rfl, rfl⟩
  | some d =>
  simp only [Option.bind_some]
  obtain ⟨tx, r, rfl, hto⟩ := mem_first (lws_nul _ h1 (by simp))
  rcases c74_start_line sscanf sscanfD hto r with ⟨sl', k⟩ | ⟨sl', rest, k, hl, -⟩
  · have hne : OSIP_SYNTAXERROR ≠ 0 := by decide
    simp only [k, Option.bind_some, if_pos hne]
    exact after_start sscanf signed sl' hto r
  have hro : Str.Ok rest := by
    obtain ⟨w, hw⟩ : ∃ w, tx = w ++ rest := by
      rcases hl with ⟨m, w, v, e, u, rfl, he, _⟩ | ⟨v, c, reason, e, k, rfl, he, _⟩
      · obtain ⟨p, rfl, _⟩ := eol_split he
        exact ⟨m ++ ' ' :: (w ++ ' ' :: (v ++ p)), by simp⟩
      · obtain ⟨p, rfl, _⟩ := eol_split he
        exact ⟨v ++ ' ' :: (c ++ ' ' :: (reason ++ p)), by simp⟩
    rw [hw] at hto; exact (ok_append_iff.1 hto).2
  have he : ¬ (OSIP_SUCCESS ≠ 0) := by decide
  simp only [k, Option.bind_some, if_neg he]
  exact after_start sscanf signed sl' hro r

/-- A message with headers of all sorts. -/
def miniText : List Char := "INVITE sip:a@b SIP/2.0\r\nVia: SIP/2.0/UDP c\r\nAllow: INVITE, ACK\r\nSubject: x\r\nContent-Encoding: gzip\r\nCall-ID: 1\r\n\r\n".toList

/-- The full library has structures for the two methods allowed and the Content-Encoding, the small one has these headers as they
came, among the others. -/
example :
    ((osip_message_parse sscanf2 sscanfD1 true (theTable true false) miniText).any fun r =>
      r.1 == 0 && (r.2.hdr .allow).length == 2 && (r.2.hdr .content_encoding).length == 1 && (r.2.hdr .via).length == 1 &&
        r.2.headers == [⟨some "subject".toList, some "x".toList⟩]) = true ∧
    ((mini_message_parse sscanf2 sscanfD1 true (theTable true true) miniText).any fun r =>
      r.1 == 0 && (r.2.hdr .allow).length == 0 && (r.2.hdr .content_encoding).length == 0 && (r.2.hdr .via).length == 1 &&
        r.2.headers == [⟨some "allow".toList, some "INVITE".toList⟩, ⟨some "allow".toList, some "ACK".toList⟩,
          ⟨some "subject".toList, some "x".toList⟩, ⟨some "content-encoding".toList, some "gzip".toList⟩]) = true := by
  decide +kernel

/-- A fragment without start line. -/
example :
    ((osip_message_parse_sipfrag sscanf2 sscanfD1 true (theTable true false) "Allow: INVITE\r\nTo: <sip:a@b>\r\n\r\n".toList).any fun r =>
      r.1 == 0 && (r.2.hdr .allow).length == 1 && (r.2.hdr .to).length == 1 && r.2.headers.length == 0) = true ∧
    ((mini_message_parse_sipfrag sscanf2 sscanfD1 true (theTable true true) "Allow: INVITE\r\nTo: <sip:a@b>\r\n\r\n".toList).any fun r =>
      r.1 == 0 && (r.2.hdr .allow).length == 0 && (r.2.hdr .to).length == 1 && r.2.headers == [⟨some "allow".toList, some "INVITE".toList⟩]) =
        true := by
  decide +kernel

example : FullOnly .allow ∧ FullOnly .content_encoding ∧ ¬ FullOnly .via := by decide

end Osip
