import Verif.Parse.Edit
import Verif.Parse.PropsCase
import Verif.Parse.PropsBody
import Verif.Parse.PropsMedia

/-!
# C99, C100: changed messages are written anew; headers are found and replaced by name
-/

set_option autoImplicit false

namespace Osip

/-! ## Specification -/

/-- What an application sees of writing a message: code and text. -/
def written (fresh : Nat → Buf) (sipfrag : Bool) (m : SipMessage) : Option (Int × Option (List Char)) :=
  (osip_message_to_str fresh sipfrag m).map fun r => (r.1, r.2.2)

/-- What may be in the message after some calls: no text of it, a text of what the message is now, or an old text. -/
inductive Phase
  | noText
  | text
  | stale
  deriving DecidableEq

/-- The calls that a phase depends on. -/
def Phase.next : Phase → Edit → Phase
  | _, .update => .noText
  | .noText, .write _ => .text
  | .text, .method _ | .text, .status _ | .text, .version _ | .text, .reason _ | .text, .uri _ => .stale
  | p, _ => p

/-- The header has this name, letters compared without case. -/
def Header.named (n : Str) (h : Header) : Bool :=
  match h.hname with
  | some s => decide (lower s = lower n)
  | none => false

/-- All headers have names. -/
def Named (hs : List Header) : Prop := ∀ h ∈ hs, ∃ s : Str, h.hname = some s ∧ s.Ok

/-! ## C99 -/

/-- A held text is that of the message. -/
def Coherent (fresh : Nat → Buf) (sipfrag : Bool) (m : SipMessage) : Prop :=
  ∀ t, m.cached = some t → written fresh sipfrag { m with cached := none } = some (OSIP_SUCCESS, some t)

theorem bodiesToStr_cases {m m' : SipMessage} {size clpos : Nat} {text : List Char} {i : Int} {T : Option (List Char)}
    (h : bodiesToStr m size text clpos = some (i, m', T)) :
    m' = m ∨ (i = OSIP_SUCCESS ∧ ∃ t, T = some t ∧ m' = { m with cached := some t }) := by
  unfold bodiesToStr at h
  simp only [Option.bind_eq_bind, Option.bind_eq_some_iff, Option.pure_def] at h
  obtain ⟨x, _, h⟩ := h
  cases x with
  | error i => simp at h; exact .inl h.2.1.symm
  | ok b =>
    simp only [Option.bind_eq_some_iff] at h
    obtain ⟨⟨i2, s2, t2⟩, _, h⟩ := h
    split at h
    · simp at h; exact .inl h.2.1.symm
    · simp only [Option.bind_eq_some_iff, Option.some.injEq, Prod.mk.injEq] at h
      obtain ⟨t3, _, t4, _, rfl, rfl, rfl⟩ := h
      exact .inr ⟨rfl, t4, rfl, rfl⟩

theorem to_str_cases {fresh : Nat → Buf} {sipfrag : Bool} {m m' : SipMessage} {i : Int} {T : Option (List Char)} (hc : m.cached = none)
    (h : osip_message_to_str fresh sipfrag m = some (i, m', T)) :
    m' = m ∨ (i = OSIP_SUCCESS ∧ ∃ t, T = some t ∧ m' = { m with cached := some t }) := by
  unfold osip_message_to_str at h
  simp only [hc, Option.bind_eq_bind, Option.bind_eq_some_iff] at h
  obtain ⟨⟨i, tmp⟩, _, h⟩ := h
  split at h
  · simp at h; exact .inl h.2.1.symm
  simp only [Option.bind_eq_some_iff] at h
  obtain ⟨⟨z, t⟩, _, ⟨i2, s2, t2⟩, _, h⟩ := h
  split at h
  · simp at h; exact .inl h.2.1.symm
  simp only [Option.bind_eq_some_iff] at h
  obtain ⟨⟨i3, s3, t3⟩, _, h⟩ := h
  split at h
  · simp at h; exact .inl h.2.1.symm
  split at h
  · simp only [Option.bind_eq_some_iff, Option.pure_def, Option.some.injEq, Prod.mk.injEq] at h
    obtain ⟨t4, _, rfl, rfl, rfl⟩ := h
    exact .inr ⟨rfl, t4, rfl, rfl⟩
  simp only [Option.bind_eq_some_iff] at h
  obtain ⟨t4, _, t5, _, t6, _, t7, _, h⟩ := h
  split at h
  · simp only [Option.pure_def, Option.some.injEq, Prod.mk.injEq] at h
    obtain ⟨rfl, rfl, rfl⟩ := h
    exact .inr ⟨rfl, t7, rfl, rfl⟩
  · exact bodiesToStr_cases h

/-- The calls that set `message_property`, if they succeed. -/
def Edit.resets : Edit → Prop
  | .typed .. | .header .. | .top .. | .replace .. | .firstVia .. | .body .. | .update => True
  | _ => False

theorem resets_run {fresh : Nat → Buf} {sscanf : Str → Option Nat} {e : Edit} (he : e.resets) {m m' : SipMessage} {i : Int}
    (h : e.run fresh sscanf m = some (i, m')) : m'.cached = none ∨ m' = m := by
  cases e with
  | typed k v =>
    unfold Edit.run callSetter at h
    simp only [Option.pure_def, Option.bind_eq_bind] at h
    repeat' split at h
    all_goals first
      | (simp only [Option.bind_eq_some_iff] at h
         obtain ⟨⟨i2, x⟩, _, h⟩ := h
         split at h <;> simp only [Option.some.injEq, Prod.mk.injEq] at h <;> obtain ⟨_, rfl⟩ := h <;> simp [SipMessage.add])
      | (simp only [Option.some.injEq, Prod.mk.injEq] at h
         exact .inr h.2.symm)
  | header n v =>
    simp only [Edit.run, message_add_header, Option.bind_eq_bind, Option.bind_eq_some_iff] at h
    obtain ⟨⟨i2, x⟩, _, h⟩ := h
    split at h
    · simp at h; exact .inr h.2.symm
    · simp only [Option.bind_eq_some_iff, Option.pure_def, Option.some.injEq, Prod.mk.injEq] at h
      obtain ⟨y, _, _, rfl⟩ := h; exact .inl rfl
  | top n v =>
    simp only [Edit.run, osip_message_set_topheader, Option.bind_eq_bind, Option.bind_eq_some_iff] at h
    obtain ⟨⟨i2, x⟩, _, h⟩ := h
    split at h
    · simp at h; exact .inr h.2.symm
    · simp only [Option.bind_eq_some_iff, Option.pure_def, Option.some.injEq, Prod.mk.injEq] at h
      obtain ⟨y, _, _, rfl⟩ := h; exact .inl rfl
  | replace n v =>
    cases n with
    | none => simp [Edit.run, osip_message_replace_header] at h; exact .inr h.2.symm
    | some n =>
      simp only [Edit.run, osip_message_replace_header, Option.bind_eq_bind, Option.bind_eq_some_iff] at h
      obtain ⟨_, _, ⟨i2, x⟩, _, h⟩ := h
      split at h
      · simp at h; exact .inr h.2.symm
      · simp only [Option.bind_eq_some_iff, Option.pure_def, Option.some.injEq, Prod.mk.injEq] at h
        obtain ⟨y, _, _, rfl⟩ := h; exact .inl rfl
  | firstVia v =>
    simp only [Edit.run, osip_message_append_via, Option.bind_eq_bind, Option.bind_eq_some_iff] at h
    obtain ⟨v, _, ⟨i2, x⟩, _, h⟩ := h
    split at h
    · simp at h; exact .inr h.2.symm
    · simp only [Option.pure_def, Option.some.injEq, Prod.mk.injEq] at h
      obtain ⟨_, rfl⟩ := h; exact .inl rfl
  | body mime b n =>
    simp only [Edit.run, osip_message_set_body, Option.bind_eq_bind, Option.bind_eq_some_iff] at h
    obtain ⟨⟨i2, x⟩, _, h⟩ := h
    split at h
    · simp at h; exact .inr h.2.symm
    · simp only [Option.pure_def, Option.some.injEq, Prod.mk.injEq] at h
      obtain ⟨_, rfl⟩ := h; exact .inl rfl
  | update => simp [Edit.run] at h; exact .inl (by rw [← h.2])
  | _ => exact absurd he id

/-- What a phase says of the message. -/
def Phase.Says (fresh : Nat → Buf) (sipfrag : Bool) (m : SipMessage) : Phase → Prop
  | .noText => m.cached = none
  | .text => Coherent fresh sipfrag m
  | .stale => True

theorem says_next {fresh : Nat → Buf} {sscanf : Str → Option Nat} {sipfrag : Bool} {e : Edit} (he : ∀ f, e = .write f → f = sipfrag)
    {m m' : SipMessage} {i : Int} {p : Phase} (hp : p.Says fresh sipfrag m) (h : e.run fresh sscanf m = some (i, m')) :
    (p.next e).Says fresh sipfrag m' := by
  have keep : e.resets → p.Says fresh sipfrag m' := by
    intro hr
    rcases resets_run hr h with hc | rfl
    · cases p with
      | noText => exact hc
      | text => intro t ht; rw [hc] at ht; simp at ht
      | stale => trivial
    · exact hp
  cases e with
  | update => simp [Edit.run] at h; cases p <;> simp [Phase.next, Phase.Says, ← h.2]
  | write f =>
    obtain rfl := he f rfl
    simp only [Edit.run, Option.map_eq_some_iff, Prod.exists, Prod.mk.injEq] at h
    obtain ⟨i2, m2, T, h, rfl, rfl⟩ := h
    have key : Coherent fresh f m → Coherent fresh f m2 := by
      intro hm t ht
      cases hc : m.cached with
      | some x =>
        simp only [osip_message_to_str, hc, Option.some.injEq, Prod.mk.injEq] at h
        obtain ⟨_, rfl, _⟩ := h
        exact hm t ht
      | none =>
        have hself : ({ m with cached := none } : SipMessage) = m := by cases m; simp only at hc; rw [hc]
        rcases to_str_cases hc h with rfl | ⟨rfl, t', rfl, rfl⟩
        · rw [hc] at ht; simp at ht
        · simp only [Option.some.injEq] at ht
          subst ht
          show written fresh f { m with cached := none } = _
          rw [hself, written, h]; rfl
    cases p with
    | noText => exact key (by intro t ht; rw [show m.cached = none from hp] at ht; simp at ht)
    | text => exact key hp
    | stale => trivial
  | typed => cases p <;> exact keep trivial
  | header => cases p <;> exact keep trivial
  | top => cases p <;> exact keep trivial
  | replace => cases p <;> exact keep trivial
  | firstVia => cases p <;> exact keep trivial
  | body => cases p <;> exact keep trivial
  | _ =>
    simp only [Edit.run, Option.some.injEq, Prod.mk.injEq] at h
    obtain ⟨_, rfl⟩ := h
    cases p with
    | noText => exact hp
    | _ => trivial

theorem says_run {fresh : Nat → Buf} {sscanf : Str → Option Nat} {sipfrag : Bool} : ∀ {es : List Edit}
    (_ : ∀ f, Edit.write f ∈ es → f = sipfrag) {m m' : SipMessage} {p : Phase} (_ : p.Says fresh sipfrag m)
    (_ : runEdits fresh sscanf es m = some m'), (es.foldl Phase.next p).Says fresh sipfrag m'
  | [], _, m, m', p, hp, h => by simp [runEdits] at h; subst h; exact hp
  | e :: es, he, m, m', p, hp, h => by
    simp only [runEdits, Option.bind_eq_some_iff] at h
    obtain ⟨⟨i, m1⟩, h1, h2⟩ := h
    exact says_run (fun f hf => he f (.tail _ hf)) (says_next (fun f hf => he f (hf ▸ .head _)) hp h1) h2

/-- **C99**, partial. After any calls on a message without a held text, all writing in one way and none of them changing the start
line of a message that may hold a text, unless an update was forced afterwards, the message is written as if it held no text. -/
theorem c99_current_partial {fresh : Nat → Buf} {sscanf : Str → Option Nat} {sipfrag : Bool} {es : List Edit}
    (hw : ∀ f, Edit.write f ∈ es → f = sipfrag) (hs : es.foldl Phase.next .noText ≠ .stale) {m m' : SipMessage} (hm : m.cached = none)
    (h : runEdits fresh sscanf es m = some m') :
    written fresh sipfrag m' = written fresh sipfrag { m' with cached := none } := by
  have hp := says_run (p := .noText) hw hm h
  have none_case : m'.cached = none → written fresh sipfrag m' = written fresh sipfrag { m' with cached := none } := by
    intro hc
    have hself : ({ m' with cached := none } : SipMessage) = m' := by cases m'; simp only at hc; rw [hc]
    rw [hself]
  have text_case : Coherent fresh sipfrag m' → written fresh sipfrag m' = written fresh sipfrag { m' with cached := none } := by
    intro hp
    cases hc : m'.cached with
    | none => exact none_case hc
    | some t =>
      rw [hp t hc]
      simp [written, osip_message_to_str, hc]
  generalize es.foldl Phase.next .noText = p at hs hp
  cases p with
  | noText => exact none_case hp
  | text => exact text_case hp
  | stale => exact absurd rfl hs

/-- A response, written, then made a 404. -/
def answered : List Edit := [.status 200, .reason (some "OK".toList), .version (some "SIP/2.0".toList), .write false, .status 404,
  .reason (some "Not Found".toList)]

/-- **C99** is false without the conditions: a response that was written and then got another status is still written with the old
one; and a message once written as a fragment is written without Content-Length afterwards. -/
theorem c99_violated :
    ((runEdits (fun n => List.replicate n ' ') (fun _ => none) answered {}).bind fun m =>
        (written (fun n => List.replicate n ' ') false m).map fun r => (m.start.status_code, r)) =
      some (404, OSIP_SUCCESS, some "SIP/2.0 200 OK\r\nContent-Length: 0\r\n\r\n".toList) ∧
    ((runEdits (fun n => List.replicate n ' ') (fun _ => none) (answered ++ [.update]) {}).bind fun m =>
        written (fun n => List.replicate n ' ') false m) =
      some (OSIP_SUCCESS, some "SIP/2.0 404 Not Found\r\nContent-Length: 0\r\n\r\n".toList) ∧
    ((runEdits (fun n => List.replicate n ' ') (fun _ => none) (answered.take 3 ++ [.write true]) {}).bind fun m =>
        written (fun n => List.replicate n ' ') false m) = some (OSIP_SUCCESS, some "SIP/2.0 200 OK\r\n\r\n".toList) := by
  refine ⟨?_, ?_, ?_⟩ <;> decide +kernel

/-- Calls that keep to the conditions: the text follows the headers. -/
def polite : List Edit := answered.take 3 ++ [.write false, .header (some "x".toList) (some "y".toList), .write false,
  .replace (some "X".toList) (some " z".toList), .firstVia (some "SIP/2.0/UDP a".toList), .write false]

example : polite.foldl Phase.next .noText ≠ .stale := by decide

example : ((runEdits (fun n => List.replicate n ' ') (fun _ => none) polite {}).bind fun m =>
    written (fun n => List.replicate n ' ') false m) =
      some (OSIP_SUCCESS, some "SIP/2.0 200 OK\r\nVia: SIP/2.0/UDP a\r\nX: z\r\nContent-Length: 0\r\n\r\n".toList) := by
  decide +kernel

/-! ## C100 -/

theorem header_named_iff {n s : Str} {h : Header} (hs : h.hname = some s) : h.named n = true ↔ lower s = lower n := by
  simp [Header.named, hs]

theorem byname_run {hs : List Header} (hh : Named hs) {n : Str} (hn : n.Ok) : ∀ (f i : Nat), f = hs.length - i → i ≤ hs.length →
    (∃ k h, i ≤ k ∧ hs[k]? = some h ∧ h.named n = true ∧ (∀ j x, i ≤ j → j < k → hs[j]? = some x → x.named n = false) ∧
      bynameLoop hs n f i = some ((k : Int), some h)) ∨
    ((∀ j x, i ≤ j → hs[j]? = some x → x.named n = false) ∧ bynameLoop hs n f i = some (OSIP_UNDEFINED_ERROR, none))
  | 0, i, hf, hi => by
    refine .inr ⟨fun j x hj hx => ?_, rfl⟩
    obtain ⟨hx, _⟩ := List.getElem?_eq_some_iff.1 hx
    omega
  | f + 1, i, hf, hi => by
    have hi' : i < hs.length := by omega
    obtain ⟨s, e1, e2⟩ := hh hs[i] (List.getElem_mem _)
    have eat : headerAt hs i = some hs[i] := by
      rw [headerAt, if_neg (by omega), Int.toNat_natCast, List.getElem?_eq_getElem hi']
    obtain ⟨k, e3, e4⟩ := c57_strcasecmp e2 hn [] []
    have e3' : osip_strcasecmp (Str.buf s) (Str.buf n) = some k := e3
    have run : bynameLoop hs n (f + 1) i = if k = 0 then some ((i : Int), some hs[i]) else bynameLoop hs n f ((i + 1 : Nat) : Int) := by
      simp only [bynameLoop, eat, e1, e3', Option.bind_eq_bind, Option.bind_some, Option.pure_def]
      rw [if_pos (by omega)]
      rfl
    rw [run]
    by_cases hk : k = 0
    · rw [if_pos hk]
      exact .inl ⟨i, hs[i], Nat.le_refl _, List.getElem?_eq_getElem hi', (header_named_iff e1).2 (e4.1 hk), fun j x h1 h2 => by omega, rfl⟩
    · rw [if_neg hk]
      have hne : hs[i].named n = false := by
        rw [← Bool.not_eq_true]
        exact fun h => hk (e4.2 ((header_named_iff e1).1 h))
      have step : ∀ j x, i ≤ j → hs[j]? = some x → (i + 1 ≤ j → x.named n = false) → x.named n = false := by
        intro j x hj hx hr
        by_cases hij : j = i
        · subst hij
          rw [List.getElem?_eq_getElem hi'] at hx
          cases hx; exact hne
        · exact hr (by omega)
      rcases byname_run hh hn f (i + 1) (by omega) hi' with ⟨k', h, g1, g2, g3, g4, g5⟩ | ⟨g1, g2⟩
      · exact .inl ⟨k', h, by omega, g2, g3, fun j x hj hk hx => step j x hj hx fun hj => g4 j x hj hk hx, g5⟩
      · exact .inr ⟨fun j x hj hx => step j x hj hx fun hj => g1 j x hj hx, g2⟩

/-- **C100**. From any position on, the first header with the name is found, letters compared without case; -1 tells that there is
none. -/
theorem c100_found {m : SipMessage} (hm : Named m.headers) {n : Str} (hn : n.Ok) (pos : Nat) :
    (∃ k h, pos ≤ k ∧ m.headers[k]? = some h ∧ h.named n = true ∧
      (∀ j x, pos ≤ j → j < k → m.headers[j]? = some x → x.named n = false) ∧
      osip_message_header_get_byname m n pos = some ((k : Int), some h)) ∨
    ((∀ j x, pos ≤ j → m.headers[j]? = some x → x.named n = false) ∧ osip_message_header_get_byname m n pos = some (-1, none)) := by
  unfold osip_message_header_get_byname
  split
  · refine .inr ⟨fun j x hj hx => ?_, rfl⟩
    obtain ⟨hx, _⟩ := List.getElem?_eq_some_iff.1 hx
    omega
  · have e : ((m.headers.length : Int) - pos).toNat = m.headers.length - pos := by omega
    rw [e]
    exact byname_run hm hn _ pos rfl (by omega)

/-- **C100**. A negative position is never refused: the null pointer is read. -/
theorem c100_negative (m : SipMessage) (n : Str) {pos : Int} (hp : pos < 0) : osip_message_header_get_byname m n pos = none := by
  unfold osip_message_header_get_byname
  rw [if_neg (by omega)]
  obtain ⟨k, hk⟩ : ∃ k, ((m.headers.length : Int) - pos).toNat = k + 1 := ⟨((m.headers.length : Int) - pos).toNat - 1, by omega⟩
  rw [hk, bynameLoop, if_pos (by omega), headerAt, if_pos (by omega)]
  rfl

theorem eraseP_first {α : Type} {p : α → Bool} : ∀ {l : List α} {k : Nat} {x : α}, l[k]? = some x → p x = true →
    (∀ j y, j < k → l[j]? = some y → p y = false) → l.eraseIdx k = l.eraseP p
  | [], k, x, h, _, _ => by simp at h
  | a :: l, 0, x, h, hp, _ => by simp at h; subst h; simp [List.eraseP_cons, hp]
  | a :: l, k + 1, x, h, hp, hb => by
    have ha : p a = false := hb 0 a (by omega) rfl
    simp only [List.getElem?_cons_succ] at h
    rw [List.eraseIdx_cons_succ, List.eraseP_cons_of_neg (by simp [ha]),
      eraseP_first h hp fun j y hj hy => hb (j + 1) y (by omega) (by simpa using hy)]

/-- **C100**. Replacing removes the first header with the name, if there is one, and puts the new one at the end, without the blanks
around name and value; nothing else of the message changes, and it holds no text. -/
theorem c100_replaced {m : SipMessage} (hm : Named m.headers) {n : Str} (hn : n.Ok) (h0 : trim n ≠ []) {v : Option Str}
    (hv : ∀ x ∈ v, x.Ok) :
    osip_message_replace_header m (some n) v =
      some (OSIP_SUCCESS, { m with headers := m.headers.eraseP (·.named n) ++ [⟨some (trim n), v.map trim⟩], cached := none }) := by
  have e := (c79_header hn h0 hv).1 [] []
  have e' : osip_message_set_header (some (Str.buf n)) (v.map Str.buf) = some (OSIP_SUCCESS, some ⟨some (trim n), v.map trim⟩) := by
    cases v <;> exact e
  rcases c100_found hm hn 0 with ⟨k, h, _, h2, h3, h4, h5⟩ | ⟨h1, h2⟩
  · simp only [osip_message_replace_header, e', Option.bind_eq_bind, Option.bind_some, Option.pure_def]
    have h5' : osip_message_header_get_byname m n 0 = some ((k : Int), some h) := h5
    rw [h5', Option.bind_some, if_neg (by simp [OSIP_SUCCESS])]
    simp only [if_pos (show (k : Int) ≠ -1 by omega), Int.toNat_natCast]
    rw [eraseP_first h2 h3 fun j y hj hy => h4 j y (Nat.zero_le _) hj hy]
  · simp only [osip_message_replace_header, e', Option.bind_eq_bind, Option.bind_some, Option.pure_def]
    have h2' : osip_message_header_get_byname m n 0 = some (-1, none) := h2
    rw [h2', Option.bind_some, if_neg (by simp [OSIP_SUCCESS])]
    simp only [if_neg (show ¬ (-1 : Int) ≠ -1 by omega)]
    rw [List.eraseP_of_forall_not]
    intro x hx hc
    obtain ⟨j, hj, rfl⟩ := List.getElem_of_mem hx
    rw [h1 j _ (Nat.zero_le _) (List.getElem?_eq_getElem hj)] at hc
    simp at hc

theorem filter_eraseP {α : Type} (p : α → Bool) : ∀ l : List α,
    (l.eraseP p).filter p = (l.filter p).tail ∧ (l.eraseP p).filter (fun x => !p x) = l.filter (fun x => !p x)
  | [] => by simp
  | a :: l => by
    cases ha : p a with
    | true => simp [List.eraseP_cons, List.filter_cons, ha]
    | false =>
      have := filter_eraseP p l
      simp [List.eraseP_cons, List.filter_cons, ha, this]

/-- **C100**, partial. If the name is given without blanks and the message has at most one header of the name, the name has exactly
one value afterwards, the new one. -/
theorem c100_one_value_partial {m : SipMessage} (hm : Named m.headers) {n : Str} (hn : n.Ok) (ht : trim n = n) (h0 : n ≠ [])
    {v : Option Str} (hv : ∀ x ∈ v, x.Ok) (h1 : m.headers.countP (·.named n) ≤ 1) :
    ∃ m', osip_message_replace_header m (some n) v = some (OSIP_SUCCESS, m') ∧
      m'.headers.filter (·.named n) = [⟨some n, v.map trim⟩] ∧
      m'.headers.filter (fun h => !h.named n) = m.headers.filter (fun h => !h.named n) ∧
      ∃ k, osip_message_header_get_byname m' n 0 = some (k, some ⟨some n, v.map trim⟩) := by
  have hnew : Header.named n ⟨some n, v.map trim⟩ = true := by simp [Header.named]
  have htail : (m.headers.filter (·.named n)).tail = [] := by
    have := List.countP_eq_length_filter (p := fun h : Header => h.named n) (l := m.headers)
    exact List.length_eq_zero_iff.1 (by rw [List.length_tail]; omega)
  have hf : List.filter (Header.named n) (m.headers.eraseP (·.named n) ++ [⟨some n, v.map trim⟩]) = [⟨some n, v.map trim⟩] := by
    rw [List.filter_append, (filter_eraseP _ _).1, htail]
    simp [List.filter_cons, hnew]
  have hr := c100_replaced hm hn (by rwa [ht]) hv
  rw [ht] at hr
  refine ⟨_, hr, hf, ?_, ?_⟩
  · rw [List.filter_append, (filter_eraseP _ _).2]
    simp [List.filter_cons, hnew]
  · have hm' : Named (m.headers.eraseP (·.named n) ++ [⟨some n, v.map trim⟩]) := by
      intro h hh
      rcases List.mem_append.1 hh with hh | hh
      · exact hm h (List.mem_of_mem_eraseP hh)
      · simp at hh; subst hh; exact ⟨n, rfl, hn⟩
    rcases c100_found (m := { m with headers := m.headers.eraseP (·.named n) ++ [⟨some n, v.map trim⟩], cached := none }) hm' hn 0 with
      ⟨k, h, _, h2, h3, _, h5⟩ | ⟨h1, _⟩
    · have : h ∈ List.filter (Header.named n) (m.headers.eraseP (·.named n) ++ [⟨some n, v.map trim⟩]) :=
        List.mem_filter.2 ⟨List.mem_of_getElem? h2, h3⟩
      rw [hf] at this
      simp at this
      subst this
      exact ⟨k, h5⟩
    · have := h1 (m.headers.eraseP (·.named n)).length ⟨some n, v.map trim⟩ (Nat.zero_le _) (by simp)
      rw [hnew] at this
      simp at this

example : ((message_add_header {} (some "a".toList) (some "1".toList)).bind fun r =>
      (message_add_header r.2 (some "b".toList) none).bind fun r =>
      (osip_message_replace_header r.2 (some "A".toList) (some " 3 ".toList)).map fun r => r.2.headers) =
    some [⟨some "b".toList, none⟩, ⟨some "A".toList, some "3".toList⟩] := by decide +kernel

/-- **C100** is false without the conditions: with two headers of the name the one left over, with its old value, is found; and a
name with a blank behind it replaces nothing. -/
theorem c100_violated :
    (((message_add_header {} (some "a".toList) (some "1".toList)).bind fun r =>
      (message_add_header r.2 (some "a".toList) (some "2".toList)).bind fun r =>
      (osip_message_replace_header r.2 (some "a".toList) (some "3".toList)).bind fun r =>
      osip_message_header_get_byname r.2 "a".toList 0) = some (0, some ⟨some "a".toList, some "2".toList⟩)) ∧
    (((message_add_header {} (some "a".toList) (some "1".toList)).bind fun r =>
      (osip_message_replace_header r.2 (some "a ".toList) (some "3".toList)).bind fun r =>
      osip_message_header_get_byname r.2 "a".toList 0) = some (0, some ⟨some "a".toList, some "1".toList⟩)) := by
  refine ⟨?_, ?_⟩ <;> decide +kernel

/-- **C100**. A header put at the top is the one that is found, the others follow in their order. -/
theorem c100_top {m : SipMessage} {n : Str} (hn : n.Ok) (h0 : trim n ≠ []) {v : Option Str} (hv : ∀ x ∈ v, x.Ok) :
    ∃ m', osip_message_set_topheader m (some n) v = some (OSIP_SUCCESS, m') ∧
      m'.headers = ⟨some (trim n), v.map trim⟩ :: m.headers ∧ m'.cached = none ∧
      ∀ n' : Str, n'.Ok → lower n' = lower (trim n) →
        osip_message_header_get_byname m' n' 0 = some (0, some ⟨some (trim n), v.map trim⟩) := by
  have e := (c79_header hn h0 hv).1 [] []
  have e' : osip_message_set_header (some (Str.buf n)) (v.map Str.buf) = some (OSIP_SUCCESS, some ⟨some (trim n), v.map trim⟩) := by
    cases v <;> exact e
  refine ⟨{ m with headers := ⟨some (trim n), v.map trim⟩ :: m.headers, cached := none }, ?_, rfl, rfl, fun n' hn' hl => ?_⟩
  · simp only [osip_message_set_topheader, Option.map_some, e', Option.bind_eq_bind, Option.bind_some]
    rfl
  · obtain ⟨k, e3, e4⟩ := c57_strcasecmp (trim_ok hn) hn' [] []
    have e3' : osip_strcasecmp (Str.buf (trim n)) (Str.buf n') = some k := e3
    have hk : k = 0 := e4.2 hl.symm
    simp only [osip_message_header_get_byname, List.length_cons]
    rw [if_neg (by omega)]
    have : (((m.headers.length + 1 : Nat) : Int) - 0).toNat = m.headers.length + 1 := by omega
    rw [this, bynameLoop, if_pos (by simp), headerAt, if_neg (by simp)]
    simp [e3', hk]

example : ((message_add_header {} (some "a".toList) (some "1".toList)).bind fun r =>
      (osip_message_set_topheader r.2 (some " a ".toList) (some "2".toList)).bind fun r =>
      (osip_message_header_get_byname r.2 "A".toList 0).map fun f => (f, r.2.headers.length)) =
    some ((0, some ⟨some "a".toList, some "2".toList⟩), 2) := by decide +kernel

end Osip
