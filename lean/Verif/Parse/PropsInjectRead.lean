import Verif.Parse.PropsInject

/-!
# C109: a message that was read has no line ends inside its headers
-/

set_option autoImplicit false

namespace Osip

theorem noEol_tolower {p q : List Char} (h : NoEol p) (e : osip_tolower p = some q) : NoEol q := by
  induction p generalizing q with
  | nil => cases e
  | cons c p ih =>
    simp only [osip_tolower] at e
    rw [noEol_cons] at h
    split at e
    · cases e; rw [noEol_cons]; exact h
    · simp only [Option.bind_eq_bind, Option.bind_eq_some_iff, Option.pure_def, Option.some.injEq] at e
      obtain ⟨r, hr, rfl⟩ := e
      rw [noEol_cons]
      refine ⟨?_, ih h.2 hr⟩
      unfold ctolower
      split
      · rename_i hc
        have h1 : 65 ≤ c.toNat := hc.1
        have h2 : c.toNat ≤ 90 := hc.2
        have h3 : ((c.toNat : Int) + 32).toNat = c.toNat + 32 := by omega
        rw [h3]
        exact ofNat_noEol (by omega)
      · have h3 : ((c.toNat : Int)).toNat = c.toNat := by omega
        rw [h3, Char.ofNat_toNat]
        exact h.1

theorem noEol_split {set : List Str → Str → Int} (p : List Char) : ∀ {beg : List Char} {q u : Bool} {acc : List Str} {i : Int} {vals : List Str},
    splitLoop set beg p q u acc = some (i, vals) → NoEol p → NoEol beg → (∀ v ∈ acc, NoEol v) → ∀ v ∈ vals, NoEol v := by
  induction p with
  | nil => intro _ _ _ _ _ _ e; simp [splitLoop] at e
  | cons c t ih =>
    intro beg q u acc i vals e hp hb ha
    have ht : NoEol t := (noEol_cons.1 hp).2
    rw [splitLoop] at e
    dsimp only at e
    split at e
    · exact ih e ht hb ha
    split at e
    · split at e
      · split at e
        · cases e
        · exact ih e ht hb ha
      · exact ih e ht hb ha
    split at e
    · exact ih e ht hb ha
    split at e
    · generalize (if c = NUL then false else q) = q' at e
      generalize (if c = NUL then false else u) = u' at e
      split at e
      · split at e
        · cases e
        · split at e
          · cases e; exact ha
          split at e
          · exact ih e ht ht ha
          split at e
          · cases e
          · rename_i v hv
            have hv : NoEol v := noEol_clrncpy hv hb
            have ha' : ∀ w ∈ v :: acc, NoEol w := by simp [hv]; exact ha
            split at e
            · cases e; exact ha'
            split at e
            · cases e; exact ha'
            · exact ih e ht ht ha'
      · exact ih e ht hb ha
    · exact ih e ht hb ha

theorem noEol_values {set : List Str → Str → Int} {n v : Str} {i : Int} {vals : List Str} (hv : NoEol v)
    (e : set_multiple_header set n (Str.buf v) = some (i, vals)) : ∀ v ∈ vals, NoEol v := by
  simp only [set_multiple_header, Option.bind_eq_bind, Option.bind_eq_some_iff, Option.pure_def] at e
  obtain ⟨o, -, e⟩ := e
  split at e
  · simp only [Option.bind_eq_some_iff, Option.some.injEq, Prod.mk.injEq] at e
    obtain ⟨w, hw, -, rfl⟩ := e
    simpa using noEol_cstr hw (noEol_buf hv)
  · exact noEol_split _ e (noEol_buf hv) (noEol_buf hv) (by simp)

theorem NoEol.add {m : SipMessage} (h : m.NoEol) {k : Setter} {x : HeaderVal} (hx : k ≠ .content_length → x.NoEol) : (m.add k x).NoEol := by
  refine ⟨?_, h.2⟩
  intro j hj y hy
  simp only [SipMessage.add] at hy
  split at hy
  · rename_i hjk
    subst hjk
    rcases List.mem_append.1 hy with hy | hy
    · exact h.1 _ hj y hy
    · rw [List.mem_singleton] at hy; rw [hy]; exact hx hj
  · exact h.1 j hj y hy

theorem noEol_map_buf {v : Option Str} (h : NoEolO v) : NoEolO (v.map Str.buf) := by
  intro p hp
  rw [Option.map_eq_some_iff] at hp
  obtain ⟨w, rfl, rfl⟩ := hp
  exact noEol_buf (h w rfl)

theorem noEol_callSetter {sscanf : Str → Option Nat} {k : Setter} {m m' : SipMessage} {v : Option Str} {i : Int} (h : m.NoEol) (hv : NoEolO v)
    (e : callSetter sscanf k m v = some (i, m')) : m'.NoEol := by
  have hc : ({ m with cached := none } : SipMessage).NoEol := h
  have hv' := noEol_map_buf hv
  simp only [callSetter] at e
  split at e
  · cases e; exact h
  split at e
  · cases e; exact h
  split at e
  · split at e
    · cases e; exact h
    simp only [Option.bind_eq_bind, Option.bind_eq_some_iff, Option.pure_def] at e
    obtain ⟨⟨j, x⟩, hp, e⟩ := e
    have hx := noEol_parseHeader hp hv'
    split at e
    · cases e; exact hc
    · cases e; exact NoEol.add hc fun _ => hx
  · simp only [Option.bind_eq_bind, Option.bind_eq_some_iff, Option.pure_def] at e
    obtain ⟨⟨j, x⟩, hp, e⟩ := e
    have hx := noEol_parseHeader hp hv'
    split at e
    · cases e; exact h
    · cases e; exact NoEol.add h fun _ => hx

theorem noEol_set__header {sscanf : Str → Option Nat} {signed : Bool} {t : List (Option Nat)} {m m' : SipMessage} {n : Str} {v : Option Str} {i : Int}
    (h : m.NoEol) (hn : NoEol n) (hv : NoEolO v) (e : message_set__header sscanf signed t m n v = some (i, m')) : m'.NoEol := by
  simp only [message_set__header, Option.bind_eq_bind, Option.bind_eq_some_iff, Option.pure_def] at e
  obtain ⟨o, -, e⟩ := e
  split at e
  · simp only [Option.bind_eq_some_iff, Option.some.injEq, Prod.mk.injEq] at e
    obtain ⟨c, -, ⟨j, m1⟩, hc, -, rfl⟩ := e
    exact noEol_callSetter h hv hc
  · simp only [Option.bind_eq_some_iff] at e
    obtain ⟨⟨j, x⟩, hx, e⟩ := e
    split at e
    · cases e; exact h
    · simp only [Option.bind_eq_some_iff, Option.some.injEq, Prod.mk.injEq] at e
      obtain ⟨x, rfl, -, rfl⟩ := e
      refine ⟨h.1, ?_⟩
      intro y hy
      rcases List.mem_append.1 hy with hy | hy
      · exact h.2 y hy
      · rw [List.mem_singleton] at hy; rw [hy]
        exact noEol_set_header hx (noEol_buf hn) (noEol_map_buf hv)

theorem noEol_setValues {set : SipMessage → Option Str → Option (Int × SipMessage)}
    (hset : ∀ m v i m', m.NoEol → NoEol v → set m (some v) = some (i, m') → m'.NoEol) (vs : List Str) :
    ∀ {m m' : SipMessage}, m.NoEol → (∀ v ∈ vs, NoEol v) → setValues set m vs = some m' → m'.NoEol := by
  induction vs with
  | nil => intro m m' h _ e; cases e; exact h
  | cons v vs ih =>
    intro m m' h hv e
    simp only [setValues, Option.bind_eq_bind, Option.bind_eq_some_iff] at e
    obtain ⟨⟨i, m1⟩, h1, e⟩ := e
    exact ih (hset _ _ _ _ h (hv v (by simp)) h1) (fun w hw => hv w (by simp [hw])) e

theorem noEol_set_multiple {sscanf : Str → Option Nat} {signed : Bool} {t : List (Option Nat)} {m m' : SipMessage} {n : Str} {v : Option Str} {i : Int}
    (h : m.NoEol) (hn : NoEol n) (hv : NoEolO v) (e : message_set_multiple sscanf signed t m n v = some (i, m')) : m'.NoEol := by
  simp only [message_set_multiple, Option.bind_eq_bind, Option.bind_eq_some_iff, Option.pure_def] at e
  obtain ⟨l, hl, c, hc, e⟩ := e
  have hc := noEol_cstr hc (noEol_tolower (noEol_buf hn) hl)
  cases v with
  | none => exact noEol_set__header h hc hv e
  | some v =>
    simp only [Option.bind_eq_some_iff, Option.some.injEq, Prod.mk.injEq] at e
    obtain ⟨⟨j, vals⟩, h1, m1, h2, -, rfl⟩ := e
    refine noEol_setValues ?_ _ h ?_ h2
    · intro m v i m' h hv e
      exact noEol_set__header h hc (by intro w hw; cases hw; exact hv) e
    · intro w hw
      exact noEol_values (hv v rfl) h1 w (List.mem_reverse.1 hw)

theorem noEol_applyAll {set : SipMessage → Str → Option Str → Option (Int × SipMessage)}
    (hset : ∀ m n v i m', m.NoEol → NoEol n → NoEolO v → set m n v = some (i, m') → m'.NoEol) (calls : List (Str × Option Str)) :
    ∀ {m m' : SipMessage} {i : Int}, m.NoEol → (∀ c ∈ calls, NoEol c.1 ∧ NoEolO c.2) → applyAll set m calls = some (i, m') → m'.NoEol := by
  induction calls with
  | nil => intro m m' i h _ e; cases e; exact h
  | cons c calls ih =>
    obtain ⟨n, v⟩ := c
    intro m m' i h hc e
    simp only [applyAll] at e
    obtain ⟨h1, h2⟩ := hc (n, v) (by simp)
    split at e
    · cases e
    · rename_i j m1 hs
      have := hset _ _ _ _ _ h h1 h2 hs
      split at e
      · cases e; exact this
      · exact ih this (fun w hw => hc w (by simp [hw])) e

theorem noEol_calls {s : Str} {calls : List (Str × Option Str)} {tail : Str} (h : HeaderPart s calls tail) :
    ∀ c ∈ calls, NoEol c.1 ∧ NoEolO c.2 := by
  induction h with
  | missing => simp
  | blank => simp
  | @line a b e rest tail calls _ ha hb _ _ _ _ ih =>
    intro c hc
    rcases List.mem_cons.1 hc with rfl | hc
    · refine ⟨noEol_trim fun x hx => (ha x hx).2, ?_⟩
      intro v hv
      simp only [lineValue] at hv
      split at hv
      · cases hv
      · cases hv; exact noEol_trim hb
    · exact ih c hc

theorem NoEol.defaultLength {m : SipMessage} (h : m.NoEol) (v : Str) : (m.defaultLength v).NoEol := by
  unfold SipMessage.defaultLength
  split
  · exact NoEol.add h fun hk => absurd rfl hk
  · exact h

theorem noEol_rest {m m' : SipMessage} {tmp : List Char} {i : Int} (h : m.NoEol) (e : parseRest m tmp = some (i, m')) :
    m'.NoEol ∧ m'.start = m.start := by
  simp only [parseRest, Option.bind_eq_bind, Option.pure_def] at e
  generalize hmm : (if m.contentLength = some none then ({ m with hdr := fun j => if j = .content_length then [] else m.hdr j } : SipMessage) else m) = m1 at e
  have hg : m1.NoEol ∧ m1.start = m.start := by
    rw [← hmm]
    split
    · refine ⟨⟨?_, h.2⟩, rfl⟩
      intro k hk x hx
      simp only [if_neg hk] at hx
      exact h.1 k hk x hx
    · exact ⟨h, rfl⟩
  have hst : ∀ (m : SipMessage) v, (m.defaultLength v).start = m.start := by
    intro m v; unfold SipMessage.defaultLength; split <;> rfl
  simp only [Option.bind_eq_some_iff] at e
  obtain ⟨b, -, e⟩ := e
  split at e
  · simp only [Option.bind_eq_some_iff] at e
    obtain ⟨⟨j, bs, cl⟩, -, e⟩ := e
    have key : ∀ m2 : SipMessage, m2.NoEol → m2.start = m.start →
        (if j ≠ 0 then some (j, ({ m2 with bodies := m2.bodies ++ bs, cached := none } : SipMessage)) else
          some (OSIP_SUCCESS, ({ m2 with bodies := m2.bodies ++ bs, cached := none } : SipMessage).defaultLength "0".toList)) = some (i, m') →
        m'.NoEol ∧ m'.start = m.start := by
      intro m2 h1 h2 e
      have h3 : ({ m2 with bodies := m2.bodies ++ bs, cached := none } : SipMessage).NoEol := h1
      split at e
      · cases e; exact ⟨h3, h2⟩
      · cases e; exact ⟨NoEol.defaultLength h3 _, by rw [hst]; exact h2⟩
    cases cl with
    | none => exact key _ hg.1 hg.2 e
    | some v => exact key _ (NoEol.defaultLength hg.1 v) (by rw [hst]; exact hg.2) e
  · cases e
    exact ⟨NoEol.defaultLength hg.1 _, by rw [hst]; exact hg.2⟩

/-! ## The start line -/

theorem lws_line (l : Str) (hl : NoEol l) : ∀ {n : Nat} {p q : List Char}, lwsLoop n (l ++ p) = some q → l <+: q := by
  induction l with
  | nil => intro n p q _; simp
  | cons c l ih =>
    intro n p q h
    cases n with
    | zero => cases h
    | succ n =>
      obtain ⟨⟨hc1, hc2⟩, hl'⟩ := noEol_cons.1 hl
      have hcr : c ≠ CR := hc1
      have hlf : c ≠ LF := hc2
      rw [List.cons_append] at h
      by_cases h0 : c = NUL
      · unfold lwsLoop at h; rw [if_pos h0] at h; cases h
        simp
      generalize ht : l ++ p = t at h
      have hlt : l <+: t := ⟨p, ht⟩
      have hself : c :: l <+: c :: t := by simpa using hlt
      unfold lwsLoop at h
      rw [if_neg h0] at h
      split at h
      · cases h
      split at h
      · cases h; exact hself
      split at h
      · cases h
      split at h
      · cases h; exact hself
      split at h
      · cases h
      split at h
      · cases h; exact hself
      rw [if_neg (by simp [hcr, hlf]), if_neg (by simp [hcr, hlf])] at h
      simp only [Option.bind_eq_bind, Option.bind_eq_some_iff, Option.pure_def, Option.some.injEq] at h
      obtain ⟨r, hr, rfl⟩ := h
      rw [← ht] at hr
      simpa using ih hl' hr

/-- The first line of the bytes: line ends before it are passed. -/
def firstLine (buf : List Char) : List Char :=
  (buf.dropWhile fun c => c = '\r' ∨ c = '\n').takeWhile fun c => ¬ (c = '\r' ∨ c = '\n')

/-- The line has three words: a blank, and another one at least two characters behind it. -/
def ThreeWords (l : List Char) : Prop := ' ' ∈ (l.dropWhile (· ≠ ' ')).drop 2

instance (l : List Char) : Decidable (ThreeWords l) := by unfold ThreeWords; infer_instance

theorem firstLine_noEol (buf : List Char) : NoEol (firstLine buf) := by
  intro c hc
  have h : ∀ l : List Char, c ∈ l.takeWhile (fun c => decide ¬ (c = '\r' ∨ c = '\n')) → ¬ (c = '\r' ∨ c = '\n') := by
    intro l
    induction l with
    | nil => simp
    | cons d l ih =>
      rw [List.takeWhile_cons]
      split
      · rename_i hd
        intro h
        rcases List.mem_cons.1 h with rfl | h
        · simpa using hd
        · exact ih h
      · simp
  have := h _ hc
  exact ⟨fun e => this (.inl e), fun e => this (.inr e)⟩

theorem first_blank {a b x y : List Char} (ha : ' ' ∉ a) (hb : ' ' ∉ b) (h : a ++ ' ' :: x = b ++ ' ' :: y) : a = b ∧ x = y := by
  induction a generalizing b with
  | nil =>
    cases b with
    | nil => simpa using h
    | cons c b => simp only [List.nil_append, List.cons_append, List.cons.injEq] at h; exact absurd (h.1 ▸ List.mem_cons_self) hb
  | cons c a ih =>
    cases b with
    | nil => simp only [List.nil_append, List.cons_append, List.cons.injEq] at h; exact absurd (h.1 ▸ List.mem_cons_self) ha
    | cons d b =>
      simp only [List.cons_append, List.cons.injEq] at h
      obtain ⟨rfl, h⟩ := h
      obtain ⟨rfl, rfl⟩ := ih (fun k => ha (by simp [k])) (fun k => hb (by simp [k])) h
      exact ⟨rfl, rfl⟩

theorem blank_in {l : List Char} (h : ' ' ∈ l) : ∃ a b, l = a ++ ' ' :: b ∧ ' ' ∉ a := by
  induction l with
  | nil => cases h
  | cons c l ih =>
    by_cases hc : c = ' '
    · exact ⟨[], l, by simp [hc], by simp⟩
    · obtain ⟨a, b, rfl, ha⟩ := ih (by rcases List.mem_cons.1 h with h | h; exact absurd h.symm hc; exact h)
      exact ⟨c :: a, b, by simp, by simp [ha]; exact fun k => hc k.symm⟩

theorem threeWords_parts {l : List Char} (h : ThreeWords l) : ∃ a x b c, l = a ++ ' ' :: x :: (b ++ ' ' :: c) ∧ ' ' ∉ a ∧ ' ' ∉ b := by
  unfold ThreeWords at h
  have h1 : ' ' ∈ l := (List.dropWhile_suffix _).mem (List.mem_of_mem_drop h)
  obtain ⟨a, t, rfl, ha⟩ := blank_in h1
  have h2 : (a ++ ' ' :: t).dropWhile (· ≠ ' ') = ' ' :: t := by
    rw [List.dropWhile_append_of_pos]
    · simp
    · intro c hc; simp; rintro rfl; exact ha hc
  rw [h2] at h
  cases t with
  | nil => simp at h
  | cons x t =>
    obtain ⟨b, c, rfl, hb⟩ := blank_in (l := t) (by simpa using h)
    exact ⟨a, x, b, c, by simp, ha, hb⟩

/-- The parts of the start line have no line ends. -/
def StartLine.NoEol (s : StartLine) : Prop :=
  NoEolO s.sip_method ∧ NoEolO s.sip_version ∧ NoEolO s.reason_phrase ∧ ∀ u, s.req_uri = some u → u.NoEol

theorem noEol_startline_to_str {fresh : Nat → Buf} (hf : ∀ n, (fresh n).length = n) {s : StartLine} (h : s.NoEol) {i : Int} {t : Str}
    (e : startline_to_str fresh s = some (i, some t)) : NoEol t := by
  obtain ⟨h1, h2, h3, h4⟩ := h
  have hv : NoEol (startVersion s) := by
    unfold startVersion
    cases hv : s.sip_version with
    | none => decide
    | some v => exact h2 v hv
  have hb : ∀ x : Str, NoEol x → NoEol (' ' :: x) := fun x hx => noEol_cons.2 ⟨by decide, hx⟩
  unfold startline_to_str at e
  split at e
  · unfold startline_to_strreq at e
    split at e
    · rename_i u m hu hm
      rw [Option.bind_eq_bind, Option.bind_eq_some_iff] at e
      obtain ⟨⟨j, o⟩, hs, e⟩ := e
      cases o with
      | none => cases e
      | some r =>
        simp only at e
        split at e
        · cases e
        simp only [Option.bind_eq_bind, Option.bind_eq_some_iff, Option.pure_def, Option.some.injEq, Prod.mk.injEq] at e
        obtain ⟨b1, k1, b2, k2, b3, k3, -, rfl⟩ := e
        exact noEol_put k3 (noEol_put k2 (noEol_put k1 (by simp) (h1 m hm)) (hb _ (noEol_uri_to_str hf (h4 u hu) hs))) (hb _ hv)
    · cases e
  · split at e
    · unfold startline_to_strresp at e
      split at e
      · cases e
      · rename_i reason hr
        split at e
        · cases e
        simp only [Option.bind_eq_bind, Option.bind_eq_some_iff, Option.pure_def, Option.some.injEq, Prod.mk.injEq] at e
        obtain ⟨b1, k1, b2, k2, b3, k3, -, rfl⟩ := e
        split at k2
        · exact noEol_put k3 (noEol_put k2 (noEol_put k1 (by simp) hv) (hb _ (digits_noEol _))) (hb _ (h3 _ hr))
        · cases k2
    · cases e

theorem noEol_start {sscanf : Str → Option Nat} {sscanfD : Str → Option Int} {l s : Str} {d : StartLine} {rest : Str} (hl : NoEol l)
    (hw : ThreeWords l) (hp : l <+: s ∨ s <+: l) (h : RequestLine sscanf s d rest ∨ StatusLine sscanfD s d rest) : d.NoEol := by
  obtain ⟨a, x, b, c, hlab, ha, hb⟩ := threeWords_parts hw
  have hla : NoEol a ∧ NoEol [x] ∧ NoEol b := by
    subst hlab
    refine ⟨hl.of_subset ?_, hl.of_subset ?_, hl.of_subset ?_⟩ <;> intro z hz
    · simp [hz]
    · rw [List.mem_singleton] at hz; simp [hz]
    · simp [hz]
  rcases h with ⟨m, w, v, e, u, rfl, he, h1, h2, h3, h4, ⟨p, q, r, n, rfl, hp', hq, hr, hn⟩, hu, rfl⟩ | ⟨v, k, reason, e, code, rfl, he, h1, h2, h3, h4, h5, h6, rfl⟩
  · have hmw : NoEol m ∧ NoEol w := by
      rcases hp with ⟨z, hz⟩ | hp
      · rw [hlab] at hz
        rw [List.append_assoc, List.cons_append] at hz
        obtain ⟨rfl, hz2⟩ := first_blank ha h2 hz
        clear hz
        refine ⟨hla.1, ?_⟩
        cases w with
        | nil => exact absurd rfl h3
        | cons y w =>
          simp only [List.cons_append, List.cons.injEq, List.append_assoc] at hz2
          obtain ⟨rfl, hz3⟩ := hz2
          obtain ⟨rfl, -⟩ := first_blank hb h4 hz3
          rw [noEol_cons]
          exact ⟨hla.2.1 x (by simp), hla.2.2⟩
      · constructor
        · exact hl.of_subset fun z hz => hp.mem (by simp [hz])
        · exact hl.of_subset fun z hz => hp.mem (by simp [hz])
    refine ⟨?_, ?_, ?_, ?_⟩
    · intro y hy; cases hy; exact hmw.1
    · intro y hy; cases hy
      have h7 : NoEol n := by
        intro z hz
        constructor <;> rintro rfl <;> rcases hn _ hz with h | h <;> revert h <;> decide
      have g1 : p ≠ '\r' ∧ p ≠ '\n' := by simp only [List.mem_cons, List.not_mem_nil, or_false] at hp'; rcases hp' with rfl | rfl <;> decide
      have g2 : q ≠ '\r' ∧ q ≠ '\n' := by simp only [List.mem_cons, List.not_mem_nil, or_false] at hq; rcases hq with rfl | rfl <;> decide
      have g3 : r ≠ '\r' ∧ r ≠ '\n' := by simp only [List.mem_cons, List.not_mem_nil, or_false] at hr; rcases hr with rfl | rfl <;> decide
      simp only [noEol_cons]
      exact ⟨g1, g2, g3, by decide, h7⟩
    · intro y hy; cases hy
    · intro y hy; cases hy; exact noEol_uri hu (noEol_buf (noEol_trim hmw.2))
  · have hv : NoEol v := by
      rcases hp with ⟨z, hz⟩ | hp
      · rw [hlab] at hz
        rw [List.append_assoc, List.cons_append] at hz
        obtain ⟨rfl, hz⟩ := first_blank ha h2 hz
        exact hla.1
      · exact hl.of_subset fun z hz => hp.mem (by simp [hz])
    refine ⟨?_, ?_, ?_, ?_⟩
    · intro y hy; cases hy
    · intro y hy; cases hy; exact hv
    · intro y hy; cases hy; exact h4
    · intro y hy; cases hy

/-- What was read has no line ends in its headers; if the first line has three words, then none in its start line either. -/
theorem noEol_read {sscanf : Str → Option Nat} {sscanfD : Str → Option Int} {signed : Bool} {buf : List Char} {m : SipMessage}
    (h : osip_message_parse sscanf sscanfD signed (theTable signed false) buf = some (OSIP_SUCCESS, m)) :
    m.NoEol ∧ (ThreeWords (firstLine buf) → m.start.NoEol) := by
  unfold osip_message_parse at h
  rw [skip_total] at h
  simp only [Option.bind_eq_bind, Option.bind_some, Option.pure_def, Option.bind_eq_some_iff] at h
  obtain ⟨t, ht, ⟨i, sl, hd⟩, hs, h⟩ := h
  have hn : NUL ∈ t := lws_nul _ ht (by simp)
  have hfl : firstLine buf <+: t := by
    have : ∃ p, buf.dropWhile (fun c => c = '\r' ∨ c = '\n') ++ [NUL] = firstLine buf ++ p := by
      obtain ⟨p, hp⟩ := List.takeWhile_prefix (l := buf.dropWhile fun c => c = '\r' ∨ c = '\n') fun c => ¬ (c = '\r' ∨ c = '\n')
      exact ⟨p ++ [NUL], by rw [← List.append_assoc]; unfold firstLine; rw [hp]⟩
    obtain ⟨p, hp⟩ := this
    unfold replace_all_lws at ht
    rw [hp] at ht
    exact lws_line _ (firstLine_noEol buf) ht
  obtain ⟨s, r, rfl, hso⟩ := mem_first hn
  simp only at h
  rcases c74_start_line sscanf sscanfD (s := s) hso r with ⟨d, k⟩ | ⟨d, rest, k, hl, -⟩
  · rw [k] at hs
    cases hs
    rw [if_pos (by decide)] at h
    cases h
  rw [k] at hs
  cases hs
  rw [if_neg (by decide)] at h
  simp only [Option.bind_eq_some_iff] at h
  obtain ⟨⟨j, m1, body⟩, hh, h⟩ := h
  have hro : Str.Ok rest := by
    rcases hl with ⟨m, w, v, e, u, rfl, he, _⟩ | ⟨v, c, reason, e, k, rfl, he, _⟩
    · obtain ⟨p, rfl, _⟩ := eol_split he
      intro hm; exact hso (by simp [hm])
    · obtain ⟨p, rfl, _⟩ := eol_split he
      intro hm; exact hso (by simp [hm])
  have hI : Filled sscanf sl { start := sl } := ⟨rfl, by simp, by simp, by simp, rfl, rfl⟩
  simp only at h
  rcases headers_kept (Filled sscanf sl) (message_set_multiple sscanf signed (theTable signed false))
      (fun m a b h ha hb => set_multiple_total signed h ha hb) hro { start := sl } hI r with ⟨m2, k⟩ | ⟨calls, tail, m2, hpart, happ, hI', k⟩
  · rw [k] at hh
    cases hh
    rw [if_pos (by decide)] at h
    cases h
  rw [k] at hh
  cases hh
  rw [if_neg (by decide)] at h
  have h0 : ({ start := sl } : SipMessage).NoEol := ⟨by simp, by simp⟩
  have h1 := noEol_applyAll (fun m n v i m' h hn hv e => noEol_set_multiple h hn hv e) calls h0 (noEol_calls hpart) happ
  obtain ⟨h2, h3⟩ := noEol_rest h1 h
  refine ⟨h2, fun hw => ?_⟩
  rw [h3, hI'.start]
  refine noEol_start (firstLine_noEol buf) hw ?_ hl
  exact List.prefix_or_prefix_of_prefix hfl (List.prefix_append _ _)

/-! ## C109 -/

/-- **C109**. A message that was read from bytes with three words in the first line, if it is written, has before the empty line at most the
start line, one line for each header of the message and the Content-Length. Missing: a first line with fewer words, see `c109_violated`. -/
theorem c109_lines_partial {sscanf : Str → Option Nat} {sscanfD : Str → Option Int} {signed : Bool} {buf : List Char} {m m' : SipMessage}
    {fresh : Nat → Buf} {T : List Char} (hf : ∀ n, (fresh n).length = n)
    (h : osip_message_parse sscanf sscanfD signed (theTable signed false) buf = some (OSIP_SUCCESS, m)) (hw : ThreeWords (firstLine buf))
    (e : osip_message_to_str fresh false m = some (OSIP_SUCCESS, m', some T)) :
    (headLines T).length ≤ 1 + (headerOrder.map fun r => (m.hdr r.1).length).sum + m.headers.length + 1 := by
  obtain ⟨h1, h2⟩ := noEol_read h
  have hc := (c90_read_message h).2.2.2.2.2
  obtain ⟨ls, body, rfl, h3, h4⟩ := written_lines hf h1 hc (fun t ht => noEol_startline_to_str hf (h2 hw) ht) e
  exact Nat.le_trans (upToBlank_join h3 body _) h4

theorem crlfLines_append (a b : List Str) : crlfLines (a ++ b) = crlfLines a ++ crlfLines b := by simp [crlfLines]

theorem known_crlf (fresh : Nat → Buf) (m : SipMessage) (rows : List (Setter × String)) :
    knownLines fresh m rows = crlfLines (rows.flatMap fun r => (m.hdr r.1).map fun x => r.2.toList ++ ": ".toList ++ writtenText (headerToStr fresh r.1 x)) := by
  induction rows with
  | nil => rfl
  | cons r rows ih =>
    rw [List.flatMap_cons, crlfLines_append, ← ih]
    have : ∀ xs : List HeaderVal, xs.flatMap (fun x => headerLine r.2.toList (writtenText (headerToStr fresh r.1 x))) =
        crlfLines (xs.map fun x => r.2.toList ++ ": ".toList ++ writtenText (headerToStr fresh r.1 x)) := by
      intro xs
      simp [crlfLines, headerLine, List.flatMap_map]
    simp only [knownLines, List.flatMap_cons, this]

theorem other_crlf (hs : List Header) : otherLines hs = crlfLines (hs.map fun h => writtenText (osip_header_to_str (some h))) := by
  simp [crlfLines, otherLines, List.flatMap_map]

/-- **C109**, the lines: if all parts of the message can be written, then a recipient who looks for lines finds before the empty line
exactly the start line, one line for each header, and the Content-Length. Missing: a first line with fewer words, see `c109_violated`. -/
theorem c109_exact_partial {sscanf : Str → Option Nat} {sscanfD : Str → Option Int} {signed : Bool} {buf : List Char} {m : SipMessage}
    {fresh : Nat → Buf} (hf : ∀ n, (fresh n).length = n)
    (h : osip_message_parse sscanf sscanfD signed (theTable signed false) buf = some (OSIP_SUCCESS, m)) (hw : ThreeWords (firstLine buf))
    (hs : Serialisable fresh m) (hl : (bodyPart m).length < 2 ^ 31) :
    ∃ m' T, osip_message_to_str fresh false m = some (OSIP_SUCCESS, m', some T) ∧
      headLines T = [writtenText (startline_to_str fresh m.start)] ++
        (headerOrder.flatMap fun r => (m.hdr r.1).map fun x => r.2.toList ++ ": ".toList ++ writtenText (headerToStr fresh r.1 x)) ++
        (m.headers.map fun x => writtenText (osip_header_to_str (some x))) ++ [lengthText m] := by
  obtain ⟨h1, h2⟩ := noEol_read h
  obtain ⟨-, hsing, -, -, -, hc⟩ := c90_read_message h
  obtain ⟨m', hT, -⟩ := c86_text hc hsing hs hl
  refine ⟨m', _, hT, ?_⟩
  have eol : "\r\n\r\n".toList = ['\r', '\n', '\r', '\n'] := rfl
  generalize hls : [writtenText (startline_to_str fresh m.start)] ++
        (headerOrder.flatMap fun r => (m.hdr r.1).map fun x => r.2.toList ++ ": ".toList ++ writtenText (headerToStr fresh r.1 x)) ++
        (m.headers.map fun x => writtenText (osip_header_to_str (some x))) ++ [lengthText m] = ls
  have hTl : headText fresh m ++ lengthText m ++ "\r\n\r\n".toList ++ bodyPart m = crlfLines ls ++ '\r' :: '\n' :: bodyPart m := by
    rw [← hls, crlfLines_append, crlfLines_append, crlfLines_append, ← known_crlf, ← other_crlf, eol, headText]
    simp [crlfLines]
  rw [hTl]
  have hne : ∀ l ∈ ls, NoEol l ∧ l ≠ [] := by
    intro l hl
    rw [← hls] at hl
    simp only [List.mem_append, List.mem_singleton, List.mem_flatMap, List.mem_map] at hl
    rcases hl with ((rfl | ⟨r, hr, x, hx, rfl⟩) | ⟨x, hx, rfl⟩) | rfl
    · obtain ⟨s, hst⟩ := hs.start
      have hs2 := noEol_startline_to_str hf (h2 hw) hst
      rw [hst]
      refine ⟨hs2, ?_⟩
      change s ≠ []
      rintro rfl
      unfold startline_to_str startline_to_strreq startline_to_strresp at hst
      walk hst <;> simp_all [put] <;> grind
    · have hn : NoEol r.2.toList ∧ r.1 ≠ .content_length := by
        have : ∀ r ∈ headerOrder, NoEol r.2.toList ∧ r.1 ≠ .content_length := by decide
        exact this r hr
      have hcol : NoEol ": ".toList := by decide
      obtain ⟨t, ht⟩ := hs.known r.1 hn.2 x hx
      rw [ht]
      refine ⟨?_, by simp⟩
      rw [noEol_append, noEol_append]
      exact ⟨⟨hn.1, hcol⟩, noEol_headerToStr hf (h1.1 r.1 hn.2 x hx) ht⟩
    · obtain ⟨t, ht⟩ := hs.other x hx
      rw [ht]
      refine ⟨noEol_header_to_str (h1.2 x hx) ht, ?_⟩
      change t ≠ []
      rintro rfl
      unfold osip_header_to_str at ht
      walk ht <;> simp_all [putn] <;> grind
    · unfold lengthText
      have k1 : NoEol "Content-Length: 0".toList := by decide
      have k2 : NoEol "Content-Length:      ".toList := by decide
      split
      · exact ⟨k1, by simp⟩
      · refine ⟨noEol_append.2 ⟨noEol_take _ k2, digits_noEol _⟩, ?_⟩
        intro h
        rw [List.append_eq_nil_iff] at h
        exact Nat.toDigits_ne_nil h.2
  refine upToBlank_exact hne _ _ ?_
  have := join_length ls
  simp; omega

/-- A line end in the first word of the start line: these bytes are read with success, the message has no header except the Content-Length that
was added, and yet a recipient of the written text finds a header X. -/
theorem c109_violated :
    ((osip_message_parse sscanf2 sscanfD1 true (theTable true false) "OPTIONS\r\nX: sip:a@b SIP/2.0\r\n\r\n".toList).any fun r =>
      r.1 == OSIP_SUCCESS && (headerOrder.all fun k => (r.2.hdr k.1).isEmpty) && r.2.headers.isEmpty &&
      (osip_message_to_str (fun n => List.replicate n ' ') false r.2).any fun w =>
        w.1 == OSIP_SUCCESS && (w.2.2.map headLines) == some ["OPTIONS".toList, "X: sip:a@b SIP/2.0".toList, "Content-Length: 0".toList]) = true := by
  decide +kernel

/-- The lines of a message which was read; a line end inside a value is written as the blanks which it was made when read. -/
example : ((osip_message_parse sscanf2 sscanfD1 true (theTable true false)
      "OPTIONS sip:a@b SIP/2.0\r\nX: y\r\n Z: w\r\nFrom: <sip:c%0D%0AU@d>\r\n\r\n".toList).any fun r =>
    r.1 == OSIP_SUCCESS && (osip_message_to_str (fun n => List.replicate n ' ') false r.2).any fun w =>
        w.1 == OSIP_SUCCESS && (w.2.2.map headLines) == some ["OPTIONS sip:a@b SIP/2.0".toList, "From: <sip:c%0D%0AU@d>".toList,
          "X: y   Z: w".toList, "Content-Length: 0".toList]) = true := by
  decide +kernel

example : ThreeWords (firstLine "\r\nOPTIONS sip:a@b SIP/2.0\r\nX: y\r\n".toList) := by decide +kernel

end Osip
