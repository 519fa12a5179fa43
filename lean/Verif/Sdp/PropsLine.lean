import Verif.Sdp.Model

/-!
# Session descriptions: single lines

What each line parser does with the value of a line.
-/

set_option autoImplicit false

namespace Osip.Sdp

open Osip

/-- No byte of the text ends a line or the text. -/
def Clean (s : Str) : Prop := ∀ c ∈ s, c ≠ '\r' ∧ c ≠ '\n' ∧ c ≠ NUL

/-- A value that a line can have. -/
def Text (s : Str) : Prop := s ≠ [] ∧ Clean s

/-- A value without `c`. -/
def Word (c : Char) (s : Str) : Prop := Text s ∧ c ∉ s

/-- A pointer to the end of a line in a text. -/
def AtEnd (crlf : List Char) : Prop := ∃ e r, crlf = e :: r ∧ (e = '\r' ∨ e = '\n') ∧ NUL ∈ r

theorem clean_append {a b : Str} : Clean (a ++ b) ↔ Clean a ∧ Clean b := by
  simp only [Clean, List.mem_append]
  exact ⟨fun h => ⟨fun c m => h c (.inl m), fun c m => h c (.inr m)⟩, fun h c m => m.elim (h.1 c) (h.2 c)⟩

theorem clean_cons {c : Char} {b : Str} : Clean (c :: b) ↔ (c ≠ '\r' ∧ c ≠ '\n' ∧ c ≠ NUL) ∧ Clean b := by
  simp [Clean]

/-! ## Scanning -/

theorem scan_run {stop : Char → Bool} {a : Str} {c : Char} {b : List Char} (ha : ∀ x ∈ a, stop x = false)
    (hc : stop c = true) : scan stop (a ++ c :: b) = some (a, c :: b) := by
  induction a with
  | nil => simp [scan, hc]
  | cons x a ih =>
    have := ih fun y m => ha y (List.mem_cons_of_mem _ m)
    simp [scan, ha x (List.mem_cons_self ..), this]

theorem scan_spec {stop : Char → Bool} {p : List Char} (h : ∃ c ∈ p, stop c = true) :
    ∃ a c b, p = a ++ c :: b ∧ (∀ x ∈ a, stop x = false) ∧ stop c = true ∧ scan stop p = some (a, c :: b) := by
  induction p with
  | nil => obtain ⟨c, m, -⟩ := h; cases m
  | cons x p ih =>
    by_cases hx : stop x = true
    · exact ⟨[], x, p, rfl, by simp, hx, by simp [scan, hx]⟩
    · obtain ⟨c, m, hc⟩ := h
      rcases List.mem_cons.1 m with rfl | m
      · exact absurd hc hx
      · obtain ⟨a, c, b, rfl, ha, hc, e⟩ := ih ⟨c, m, hc⟩
        refine ⟨x :: a, c, b, rfl, ?_, hc, by simp [scan, hx, e]⟩
        intro y m
        rcases List.mem_cons.1 m with rfl | m
        · simpa using hx
        · exact ha y m

/-! ## Tokens -/

theorem token_word {c : Char} {a : Str} (h : Word c a) (hc : c ≠ '\r' ∧ c ≠ '\n' ∧ c ≠ NUL) (b : List Char) :
    token (a ++ c :: b) c = some (some (a, b)) := by
  obtain ⟨⟨hn, hcl⟩, hm⟩ := h
  have e : scan (fun x => x == c || x == NUL || x == '\r' || x == '\n') (a ++ c :: b) = some (a, c :: b) := by
    refine scan_run ?_ (by simp)
    intro x m
    have := hcl x m
    have : x ≠ c := fun e => hm (e ▸ m)
    simp [*]
  simp [token, e, deref, hc, hn]

theorem token_fail {c e : Char} {val : Str} (h : Clean val) (hc : c ≠ '\r' ∧ c ≠ '\n' ∧ c ≠ NUL)
    (he : e = '\r' ∨ e = '\n') (hv : c ∉ val ∨ ∃ b, val = c :: b) (r : List Char) :
    token (val ++ e :: r) c = some none := by
  rcases hv with hv | ⟨b, rfl⟩
  · have e1 : scan (fun x => x == c || x == NUL || x == '\r' || x == '\n') (val ++ e :: r) = some (val, e :: r) := by
      refine scan_run ?_ (by rcases he with rfl | rfl <;> simp)
      intro x m
      have := h x m
      have : x ≠ c := fun e => hv (e ▸ m)
      simp [*]
    have : e ≠ c := by
      rcases he with rfl | rfl
      · exact hc.1.symm
      · exact hc.2.1.symm
    simp [token, e1, deref, he, this]
  · simp [token, scan, deref, hc]

theorem lastToken_val {e : Char} {val : Str} (h : Text val) (he : e = '\r' ∨ e = '\n') (r : List Char) :
    lastToken (val ++ e :: r) = some (some (val, r)) := by
  obtain ⟨hn, hcl⟩ := h
  have e1 : ∀ c, c = '\r' ∨ c = '\n' →
      scan (fun x => x == c || x == NUL || x == '\r' || x == '\n') (val ++ e :: r) = some (val, e :: r) := by
    intro c hc
    refine scan_run ?_ (by rcases he with rfl | rfl <;> simp)
    intro x m
    have := hcl x m
    rcases hc with rfl | rfl <;> simp [*]
  have hcr := e1 '\r' (.inl rfl)
  have hlf := e1 '\n' (.inr rfl)
  rcases he with rfl | rfl
  · simp [lastToken, token, hcr, deref, hn, show '\r' ≠ NUL by decide]
  · simp [lastToken, token, hcr, hlf, deref, hn, show '\n' ≠ NUL by decide]

theorem lastToken_nil {e : Char} (he : e = '\r' ∨ e = '\n') (r : List Char) :
    lastToken (e :: r) = some none := by
  rcases he with rfl | rfl <;> simp [lastToken, token, scan, deref]

theorem token_cases {c : Char} {val crlf : List Char} (h : Clean val) (hc : c ≠ '\r' ∧ c ≠ '\n' ∧ c ≠ NUL) (hn : AtEnd crlf) :
    (∃ a b, val = a ++ c :: b ∧ Word c a ∧ Clean b ∧ token (val ++ crlf) c = some (some (a, b ++ crlf))) ∨
      ((c ∉ val ∨ ∃ b, val = c :: b) ∧ token (val ++ crlf) c = some none) := by
  obtain ⟨e, r, rfl, he, -⟩ := hn
  by_cases hm : c ∈ val
  · obtain ⟨a, b, rfl, hna⟩ := mem_first hm
    cases a with
    | nil => exact .inr ⟨.inr ⟨b, rfl⟩, token_fail h hc he (.inr ⟨b, rfl⟩) r⟩
    | cons x a =>
      have h2 := clean_append.1 h
      have hw : Word c (x :: a) := ⟨⟨by simp, h2.1⟩, hna⟩
      exact .inl ⟨x :: a, b, rfl, hw, (clean_cons.1 h2.2).2, by simpa using token_word hw hc (b ++ e :: r)⟩
  · exact .inr ⟨.inl hm, token_fail h hc he (.inl hm) r⟩

theorem lastToken_cases {val crlf : List Char} (h : Clean val) (hn : AtEnd crlf) :
    (Text val ∧ lastToken (val ++ crlf) = some (some (val, crlf.drop 1))) ∨ (val = [] ∧ lastToken (val ++ crlf) = some none) := by
  obtain ⟨e, r, rfl, he, -⟩ := hn
  cases val with
  | nil => exact .inr ⟨rfl, lastToken_nil he r⟩
  | cons x v => exact .inl ⟨⟨by simp, h⟩, lastToken_val ⟨by simp, h⟩ he r⟩

/-- The searches for a byte before the end of the line. -/
theorem search_in {c : Char} {a b : Str} {crlf : List Char} (h : Clean a) (hc : c ∉ a) :
    cstrchr c ((a ++ c :: b) ++ crlf) = some (some (c :: (b ++ crlf))) ∧ below (c :: (b ++ crlf)) crlf = true := by
  constructor
  · induction a with
    | nil => simp [cstrchr]
    | cons x a ih =>
      have h2 := clean_cons.1 h
      have hc2 : c ≠ x ∧ c ∉ a := by simpa using hc
      simpa [cstrchr, hc2.1.symm, h2.1] using ih h2.2 hc2.2
  · simp [below]; omega

theorem search_any {c : Char} {p : List Char} (hp : NUL ∈ p) : ∃ x, cstrchr c p = some x ∧
    ∀ q, x = some q → ∃ a b, q = c :: b ∧ p = a ++ q := by
  induction p with
  | nil => cases hp
  | cons y p ih =>
    simp only [cstrchr]
    by_cases h1 : y = c
    · exact ⟨some (y :: p), by rw [if_pos h1], by rintro q ⟨⟩; exact ⟨[], p, by rw [h1], rfl⟩⟩
    · by_cases h2 : y = NUL
      · exact ⟨none, by rw [if_neg h1, if_pos h2], by rintro q ⟨⟩⟩
      · obtain ⟨x, e, hx⟩ := ih (by simpa [Ne.symm h2] using hp)
        refine ⟨x, by rw [if_neg h1, if_neg h2, e], ?_⟩
        intro q hq
        obtain ⟨a, b, hb, rfl⟩ := hx q hq
        exact ⟨y :: a, b, hb, rfl⟩

theorem search_out {c : Char} {v : Str} {crlf : List Char} (h : Clean v) (hc : c ∉ v) (hn : NUL ∈ crlf) :
    ∃ x, cstrchr c (v ++ crlf) = some x ∧ ∀ q, x = some q → ∃ a b, q = c :: b ∧ crlf = a ++ q := by
  induction v with
  | nil => exact search_any hn
  | cons y v ih =>
    have h2 := clean_cons.1 h
    have hc2 : c ≠ y ∧ c ∉ v := by simpa using hc
    obtain ⟨x, e, hx⟩ := ih h2.2 hc2.2
    exact ⟨x, by simpa [cstrchr, hc2.1.symm, h2.1] using e, hx⟩

theorem not_below_of {q a crlf : List Char} (h : crlf = a ++ q) : below q crlf = false := by
  subst h; simp [below]

theorem search_not_below {c : Char} {v : Str} {crlf : List Char} (h : Clean v) (hc : c ∉ v) (hn : NUL ∈ crlf) :
    ∃ x, cstrchr c (v ++ crlf) = some x ∧ (x.any fun q => below q crlf) = false := by
  obtain ⟨x, e, hx⟩ := search_out h hc hn
  refine ⟨x, e, ?_⟩
  cases x with
  | none => rfl
  | some q =>
    obtain ⟨a, -, -, ha⟩ := hx q rfl
    simpa using not_below_of ha

theorem atEnd_nul {crlf : List Char} (h : AtEnd crlf) : NUL ∈ crlf := by
  obtain ⟨e, r, rfl, -, hr⟩ := h
  exact List.mem_cons_of_mem _ hr

theorem sp_ok : ' ' ≠ '\r' ∧ ' ' ≠ '\n' ∧ ' ' ≠ NUL := by decide
theorem sl_ok : '/' ≠ '\r' ∧ '/' ≠ '\n' ∧ '/' ≠ NUL := by decide
theorem co_ok : ':' ≠ '\r' ∧ ':' ≠ '\n' ∧ ':' ≠ NUL := by decide

theorem andThen_none {α β : Type} (f : α → Option (Option β)) : andThen (some none) f = some none := rfl
theorem andThen_some {α β : Type} (a : α) (f : α → Option (Option β)) : andThen (some (some a)) f = f a := rfl

/-! ## The values of the lines -/

/-- A colon separates two parts of a value. -/
def pairText (a : Str) (b : Option Str) : Str := a ++ b.elim [] (':' :: ·)

/-- What a `k` or an `a` line can have. -/
def WfPair (a b : Option Str) : Prop := ∃ x, a = some x ∧ Word ':' x ∧ ∀ y, b = some y → Text y

theorem readPair_write {a : Str} {b : Option Str} (h : WfPair (some a) b) {crlf : List Char} (hn : AtEnd crlf) :
    readPair (pairText a b ++ crlf) crlf = some (some (a, b)) := by
  obtain ⟨_, ⟨⟩, hw, hb⟩ := h
  cases b with
  | none =>
    obtain ⟨x, e, hx⟩ := search_not_below hw.1.2 hw.2 (atEnd_nul hn)
    obtain ⟨e1, r, rfl, he, -⟩ := hn
    simp [readPair, pairText, e, hx, lastToken_val hw.1 he, andThen_some]
  | some y =>
    obtain ⟨e1, e2⟩ := search_in (b := y) (crlf := crlf) hw.1.2 hw.2
    obtain ⟨e, r, rfl, he, -⟩ := hn
    have e3 := token_word hw co_ok (y ++ e :: r)
    simp only [List.append_assoc, List.cons_append] at e1 e2
    simp [readPair, pairText, e1, e2, e3, lastToken_val (hb y rfl) he, andThen_some]

theorem readPair_read {val crlf : List Char} (hv : Text val) (hn : AtEnd crlf) :
    ∃ x, readPair (val ++ crlf) crlf = some x ∧ ∀ k, x = some k → WfPair (some k.1) k.2 ∧ pairText k.1 k.2 = val := by
  by_cases hm : ':' ∈ val
  · obtain ⟨a, b, rfl, hna⟩ := mem_first hm
    have hc := clean_append.1 hv.2
    obtain ⟨e1, e2⟩ := search_in (b := b) (crlf := crlf) hc.1 hna
    rcases token_cases hv.2 co_ok hn with ⟨a', b', e, hw, hb, ht⟩ | ⟨-, ht⟩
    · rw [readPair, e1]
      simp only [Option.bind_eq_bind, Option.bind_some, Option.any_some, e2, if_true, ht, andThen_some]
      rcases lastToken_cases hb hn with ⟨h2, e3⟩ | ⟨-, e3⟩
      · refine ⟨_, by rw [e3]; rfl, ?_⟩
        rintro k ⟨⟩
        exact ⟨⟨a', rfl, hw, by rintro y ⟨⟩; exact h2⟩, by simp [pairText, e]⟩
      · exact ⟨none, by rw [e3]; rfl, by rintro k ⟨⟩⟩
    · refine ⟨none, ?_, by rintro k ⟨⟩⟩
      rw [readPair, e1]
      simp only [Option.bind_eq_bind, Option.bind_some, Option.any_some, e2, if_true, ht, andThen_none]
  · obtain ⟨x, e, hx⟩ := search_not_below hv.2 hm (atEnd_nul hn)
    refine ⟨some (val, none), ?_, ?_⟩
    · obtain ⟨e1, r, rfl, he, -⟩ := hn
      simp [readPair, e, hx, lastToken_val hv he, andThen_some]
    · rintro k ⟨⟩
      exact ⟨⟨val, rfl, ⟨hv, hm⟩, by rintro y ⟨⟩⟩, by simp [pairText]⟩

/-- The value of a `b` line. -/
def WfBandwidth (b : Bandwidth) : Prop := ∃ t v, b = ⟨some t, some v⟩ ∧ Word ':' t ∧ Text v

def bandwidthText (b : Bandwidth) : Str := b.bwtype.getD [] ++ ':' :: b.bandwidth.getD []

theorem readBandwidth_write {b : Bandwidth} (h : WfBandwidth b) {crlf : List Char} (hn : AtEnd crlf) :
    readBandwidth (bandwidthText b ++ crlf) = some (some b) := by
  obtain ⟨t, v, rfl, ht, hv⟩ := h
  obtain ⟨e, r, rfl, he, -⟩ := hn
  have e1 := token_word ht co_ok (v ++ e :: r)
  simp [readBandwidth, bandwidthText, e1, lastToken_val hv he, andThen_some]

theorem readBandwidth_read {val crlf : List Char} (hv : Text val) (hn : AtEnd crlf) :
    ∃ x, readBandwidth (val ++ crlf) = some x ∧ ∀ b, x = some b → WfBandwidth b ∧ bandwidthText b = val := by
  unfold readBandwidth
  rcases token_cases hv.2 co_ok hn with ⟨a, b, rfl, hw, hb, ht⟩ | ⟨-, ht⟩
  · rw [ht]
    simp only [andThen_some]
    rcases lastToken_cases hb hn with ⟨h2, e3⟩ | ⟨-, e3⟩
    · refine ⟨_, by rw [e3]; rfl, ?_⟩
      rintro k ⟨⟩
      exact ⟨⟨a, b, rfl, hw, h2⟩, by simp [bandwidthText]⟩
    · exact ⟨none, by rw [e3]; rfl, by rintro k ⟨⟩⟩
  · exact ⟨none, by rw [ht]; rfl, by rintro k ⟨⟩⟩

/-- The value of a `t` line. -/
def WfTimeLine (t : TimeDescr) : Prop := ∃ a b, t.start = some a ∧ t.stop = some b ∧ Word ' ' a ∧ Text b

def timeText (t : TimeDescr) : Str := t.start.getD [] ++ ' ' :: t.stop.getD []

theorem readTime_write {t : TimeDescr} (h : WfTimeLine t) {crlf : List Char} (hn : AtEnd crlf) :
    readTime (timeText t ++ crlf) = some (some { t with repeats := [] }) := by
  obtain ⟨a, b, ea, eb, ha, hb⟩ := h
  obtain ⟨e, r, rfl, he, -⟩ := hn
  have e1 := token_word ha sp_ok (b ++ e :: r)
  simp [readTime, timeText, ea, eb, e1, lastToken_val hb he, andThen_some]

theorem readTime_read {val crlf : List Char} (hv : Text val) (hn : AtEnd crlf) :
    ∃ x, readTime (val ++ crlf) = some x ∧ ∀ t, x = some t → WfTimeLine t ∧ t.repeats = [] ∧ timeText t = val := by
  unfold readTime
  rcases token_cases hv.2 sp_ok hn with ⟨a, b, rfl, hw, hb, ht⟩ | ⟨-, ht⟩
  · rw [ht]
    simp only [andThen_some]
    rcases lastToken_cases hb hn with ⟨h2, e3⟩ | ⟨-, e3⟩
    · refine ⟨_, by rw [e3]; rfl, ?_⟩
      rintro k ⟨⟩
      exact ⟨⟨a, b, rfl, rfl, hw, h2⟩, rfl, by simp [timeText]⟩
    · exact ⟨none, by rw [e3]; rfl, by rintro k ⟨⟩⟩
  · exact ⟨none, by rw [ht]; rfl, by rintro k ⟨⟩⟩

/-- The value of a `c` line: a number of addresses needs a time to live. -/
def WfConnection (c : Connection) : Prop :=
  ∃ n t a, c.nettype = some n ∧ c.addrtype = some t ∧ c.addr = some a ∧ Word ' ' n ∧ Word ' ' t ∧ Word '/' a ∧
    (∀ x, c.ttl = some x → Word '/' x) ∧ (∀ x, c.int = some x → Text x) ∧ (c.ttl = none → c.int = none)

def connectionText (c : Connection) : Str :=
  c.nettype.getD [] ++ ' ' :: c.addrtype.getD [] ++ ' ' :: c.addr.getD [] ++ c.ttl.elim [] ('/' :: ·) ++ c.int.elim [] ('/' :: ·)

theorem readConnection_write {c : Connection} (h : WfConnection c) {crlf : List Char} (hn : AtEnd crlf) :
    readConnection (connectionText c ++ crlf) crlf = some (some c) := by
  obtain ⟨n, t, a, en, et, ea, hwn, hwt, hwa, httl, hint, hni⟩ := h
  obtain ⟨cn, ct, ca, cttl, cint⟩ := c
  simp only at en et ea httl hint hni
  subst en et ea
  cases cttl with
  | none =>
    cases hni rfl
    obtain ⟨x, e, hx⟩ := search_not_below hwa.1.2 hwa.2 (atEnd_nul hn)
    obtain ⟨e1, r, rfl, he, -⟩ := hn
    have t1 := token_word hwn sp_ok (t ++ ' ' :: (a ++ e1 :: r))
    have t2 := token_word hwt sp_ok (a ++ e1 :: r)
    simp [readConnection, connectionText, t1, t2, e, hx, lastToken_val hwa.1 he, andThen_some]
  | some ttl =>
    have ht := httl ttl rfl
    cases cint with
    | none =>
      obtain ⟨s1, s2⟩ := search_in (b := ttl) (crlf := crlf) hwa.1.2 hwa.2
      obtain ⟨x, e, hx⟩ := search_not_below ht.1.2 ht.2 (atEnd_nul hn)
      obtain ⟨e1, r, rfl, he, -⟩ := hn
      have t1 := token_word hwn sp_ok (t ++ ' ' :: (a ++ '/' :: (ttl ++ e1 :: r)))
      have t2 := token_word hwt sp_ok (a ++ '/' :: (ttl ++ e1 :: r))
      have t3 := token_word hwa sl_ok (ttl ++ e1 :: r)
      simp only [List.append_assoc, List.cons_append] at s1 s2
      simp [readConnection, connectionText, t1, t2, t3, s1, s2, e, hx, lastToken_val ht.1 he, andThen_some]
    | some int =>
      have hi := hint int rfl
      obtain ⟨s1, s2⟩ := search_in (b := ttl ++ '/' :: int) (crlf := crlf) hwa.1.2 hwa.2
      obtain ⟨s3, s4⟩ := search_in (b := int) (crlf := crlf) ht.1.2 ht.2
      obtain ⟨e1, r, rfl, he, -⟩ := hn
      have t1 := token_word hwn sp_ok (t ++ ' ' :: (a ++ '/' :: (ttl ++ '/' :: (int ++ e1 :: r))))
      have t2 := token_word hwt sp_ok (a ++ '/' :: (ttl ++ '/' :: (int ++ e1 :: r)))
      have t3 := token_word hwa sl_ok (ttl ++ '/' :: (int ++ e1 :: r))
      have t4 := token_word ht sl_ok (int ++ e1 :: r)
      simp only [List.append_assoc, List.cons_append] at s1 s2 s3 s4
      simp [readConnection, connectionText, t1, t2, t3, t4, s1, s2, s3, s4, lastToken_val hi he, andThen_some]

theorem readConnection_read {val crlf : List Char} (hv : Text val) (hn : AtEnd crlf) :
    ∃ x, readConnection (val ++ crlf) crlf = some x ∧ ∀ c, x = some c → WfConnection c ∧ connectionText c = val := by
  have stop : ∃ x, (some none : Option (Option Connection)) = some x ∧
      ∀ c, x = some c → WfConnection c ∧ connectionText c = val := ⟨none, rfl, by rintro k ⟨⟩⟩
  unfold readConnection
  rcases token_cases hv.2 sp_ok hn with ⟨n, v1, rfl, hwn, hv1, t1⟩ | ⟨-, t1⟩
  case inr => rw [t1, andThen_none]; exact stop
  rw [t1, andThen_some]
  rcases token_cases hv1 sp_ok hn with ⟨t, v2, rfl, hwt, hv2, t2⟩ | ⟨-, t2⟩
  case inr => simp only [t2, andThen_none]; exact stop
  simp only [t2, andThen_some]
  by_cases hm : '/' ∈ v2
  · obtain ⟨a, b, rfl, hna⟩ := mem_first hm
    have hc := clean_append.1 hv2
    have hb := (clean_cons.1 hc.2).2
    obtain ⟨s1, s2⟩ := search_in (b := b) (crlf := crlf) hc.1 hna
    simp only [s1, Option.bind_eq_bind, Option.bind_some, Option.any_some, s2, if_true, Option.getD_some,
      List.cons_append, List.drop_succ_cons, List.drop_zero]
    rcases token_cases hv2 sl_ok hn with ⟨a', b', e, hwa, -, t3⟩ | ⟨-, t3⟩
    case inr => simp only [t3, andThen_none]; exact stop
    have hab : a = a' ∧ b = b' := by
      have h1 := congrArg (List.takeWhile (· ≠ '/')) e
      have tw : ∀ (x y : List Char), '/' ∉ x → List.takeWhile (· ≠ '/') (x ++ '/' :: y) = x := by
        intro x y hx
        induction x with
        | nil => simp
        | cons z x ih =>
          have hz : '/' ≠ z ∧ '/' ∉ x := by simpa using hx
          rw [List.cons_append, List.takeWhile_cons_of_pos (by simpa using hz.1.symm), ih hz.2]
      rw [tw _ _ hna, tw _ _ hwa.2] at h1
      subst h1
      exact ⟨rfl, by simpa using e⟩
    obtain ⟨rfl, rfl⟩ := hab
    simp only [t3, andThen_some]
    by_cases hm2 : '/' ∈ b
    · obtain ⟨l, i, rfl, hnl⟩ := mem_first hm2
      have hc2 := clean_append.1 hb
      obtain ⟨s3, s4⟩ := search_in (b := i) (crlf := crlf) hc2.1 hnl
      simp only [s3, Option.bind_some, Option.any_some, s4, if_true]
      rcases token_cases hb sl_ok hn with ⟨l', i', e2, hwl, hci, t4⟩ | ⟨-, t4⟩
      case inr => simp only [t4, andThen_none]; exact stop
      simp only [t4, andThen_some]
      rcases lastToken_cases hci hn with ⟨h2, e3⟩ | ⟨-, e3⟩
      case inr => simp only [e3, andThen_none]; exact stop
      refine ⟨_, by rw [e3]; rfl, ?_⟩
      rintro k ⟨⟩
      refine ⟨⟨n, t, a, rfl, rfl, rfl, hwn, hwt, hwa, ?_, ?_, by simp⟩, by simp [connectionText, e2]⟩
      · rintro x ⟨⟩; exact hwl
      · rintro x ⟨⟩; exact h2
    · obtain ⟨x, ex, hx⟩ := search_not_below hb hm2 (atEnd_nul hn)
      simp only [ex, Option.bind_some, hx, Bool.false_eq_true, if_false]
      rcases lastToken_cases hb hn with ⟨h2, e3⟩ | ⟨-, e3⟩
      case inr => simp only [e3, andThen_none]; exact stop
      refine ⟨_, by rw [e3]; rfl, ?_⟩
      rintro k ⟨⟩
      refine ⟨⟨n, t, a, rfl, rfl, rfl, hwn, hwt, hwa, ?_, by simp, by simp⟩, by simp [connectionText]⟩
      rintro x ⟨⟩; exact ⟨h2, hm2⟩
  · obtain ⟨x, ex, hx⟩ := search_not_below hv2 hm (atEnd_nul hn)
    simp only [ex, Option.bind_eq_bind, Option.bind_some, hx, Bool.false_eq_true, if_false]
    rcases lastToken_cases hv2 hn with ⟨h2, e3⟩ | ⟨-, e3⟩
    case inr => simp only [e3, andThen_none]; exact stop
    refine ⟨_, by rw [e3]; rfl, ?_⟩
    rintro k ⟨⟩
    exact ⟨⟨n, t, v2, rfl, rfl, rfl, hwn, hwt, ⟨h2, hm⟩, by simp, by simp, by simp⟩, by simp [connectionText]⟩

/-! ## The media line -/

/-- The payloads: the last one may begin with a blank. -/
def WfPayloads : List Str → Prop
  | [] => True
  | [x] => Text x ∧ ' ' ∉ x.drop 1
  | x :: l => Word ' ' x ∧ WfPayloads l

def payloadsText (l : List Str) : Str := l.flatMap (' ' :: ·)

/-- The value of an `m` line: only a protocol without payloads can have blanks, and then it begins with one. -/
def WfMediaLine (m : Media) : Prop :=
  ∃ a p t, m.media = some a ∧ m.port = some p ∧ m.proto = some t ∧ Word ' ' a ∧ Word ' ' p ∧ '/' ∉ p ∧
    (∀ x, m.number = some x → Word ' ' x) ∧ Text t ∧ (' ' ∈ t → m.payloads = [] ∧ ∃ v, t = ' ' :: v) ∧ WfPayloads m.payloads

def mediaText (m : Media) : Str :=
  m.media.getD [] ++ ' ' :: m.port.getD [] ++ m.number.elim [] ('/' :: ·) ++ ' ' :: m.proto.getD [] ++ payloadsText m.payloads

/-- An `m` line that ends with the protocol. -/
def BareMedia (val : Str) : Prop :=
  ∃ a b c, val = a ++ ' ' :: b ++ ' ' :: c ∧ Word ' ' a ∧ Word ' ' b ∧ Text c ∧ (' ' ∉ c ∨ ∃ d, c = ' ' :: d)

theorem atEnd_drop {crlf : List Char} (h : AtEnd crlf) : NUL ∈ crlf.drop 1 := by
  obtain ⟨e, r, rfl, -, hr⟩ := h
  exact hr

theorem wfPayloads_cons {x : Str} {l : List Str} (hx : Word ' ' x) (hl : WfPayloads l) : WfPayloads (x :: l) := by
  cases l with
  | nil => exact ⟨hx.1, fun h => hx.2 (List.mem_of_mem_drop h)⟩
  | cons y l => exact ⟨hx, hl⟩

/-- No blank is found before the end of the line. -/
theorem no_more {v : Str} {crlf : List Char} (hv : Clean v) (hs : ' ' ∉ v) (hn : AtEnd crlf) :
    ∃ x, cstrchr ' ' (v ++ crlf) = some x ∧ (x.any fun q => ¬ below crlf q) = false := by
  obtain ⟨x, e, hx⟩ := search_out hv hs (atEnd_nul hn)
  refine ⟨x, e, ?_⟩
  cases x with
  | none => rfl
  | some q =>
    obtain ⟨a, b, rfl, h⟩ := hx q rfl
    obtain ⟨e1, r, rfl, he, -⟩ := hn
    cases a with
    | nil => simp only [List.nil_append, List.cons.injEq] at h; rcases he with rfl | rfl <;> simp at h
    | cons y a =>
      have : (b.length + 1) < (e1 :: r).length := by rw [h]; simp; omega
      simpa [below] using this

theorem no_more_behind {r : List Char} {crlf : List Char} (h : NUL ∈ r) (hl : r.length < crlf.length) :
    ∃ x, cstrchr ' ' r = some x ∧ (x.any fun q => ¬ below crlf q) = false := by
  obtain ⟨x, e, hx⟩ := search_any (c := ' ') h
  refine ⟨x, e, ?_⟩
  cases x with
  | none => rfl
  | some q =>
    obtain ⟨a, b, -, rfl⟩ := hx q rfl
    simp [below] at hl ⊢
    omega

theorem andThen_assoc {α β γ : Type} (x : Option (Option α)) (f : α → Option (Option β)) (g : β → Option (Option γ)) :
    andThen (andThen x f) g = andThen x fun a => andThen (f a) g := by
  rcases x with _ | _ | a <;> rfl

/-- What is done behind the loop over the payloads. -/
def lastPayload (crlf : List Char) (r : List Str × List Char) : Option (Option (List Str)) :=
  if below r.2 crlf then andThen (lastToken r.2) fun str => some (some (r.1 ++ [str.1])) else some (some r.1)

theorem lastPayload_cons (crlf : List Char) (x : Str) (r : List Str × List Char) :
    lastPayload crlf (x :: r.1, r.2) = andThen (lastPayload crlf r) fun l => some (some (x :: l)) := by
  unfold lastPayload
  split
  · rw [andThen_assoc]; rfl
  · rfl

theorem loop_step (crlf : List Char) (n : Nat) (tmp : List Char) :
    andThen (payloadLoop crlf (n + 1) tmp) (lastPayload crlf) = (cstrchr ' ' (tmp.drop 1)).bind fun space =>
      if space.any fun q => ¬ below crlf q then
        andThen (token tmp ' ') fun str =>
          andThen (andThen (payloadLoop crlf n str.2) (lastPayload crlf)) fun l => some (some (str.1 :: l))
      else lastPayload crlf ([], tmp) := by
  rw [payloadLoop]
  cases cstrchr ' ' (tmp.drop 1) with
  | none => rfl
  | some space =>
    simp only [Option.bind_eq_bind, Option.bind_some]
    split
    · rw [andThen_assoc]
      congr 1
      funext str
      rw [andThen_assoc, andThen_assoc]
      congr 1
      funext r
      exact lastPayload_cons crlf str.1 r
    · rfl

theorem payloads_read {crlf : List Char} (hn : AtEnd crlf) (n : Nat) (v : Str) (hv : Clean v) (hl : v.length < n) :
    ∃ x, andThen (payloadLoop crlf n (v ++ crlf)) (lastPayload crlf) = some x ∧
      ∀ l, x = some l → WfPayloads l ∧ (' ' :: v = payloadsText l ∨ ' ' :: v = payloadsText l ++ [' ']) := by
  induction n generalizing v with
  | zero => omega
  | succ n ih =>
    rw [loop_step]
    cases v with
    | nil =>
      obtain ⟨x, e, hx⟩ := no_more_behind (atEnd_drop hn) (crlf := crlf) (by
        obtain ⟨e, r, rfl, -, -⟩ := hn; simp)
      refine ⟨some [], ?_, ?_⟩
      · simp only [List.nil_append, e, Option.bind_some, hx]
        simp [lastPayload, below]
      · rintro l ⟨⟩
        exact ⟨trivial, .inr rfl⟩
    | cons c v =>
      have hc := clean_cons.1 hv
      by_cases hm : ' ' ∈ v
      · obtain ⟨a, b, rfl, hna⟩ := mem_first hm
        obtain ⟨s1, s2⟩ := search_in (b := b) (crlf := crlf) (clean_append.1 hc.2).1 hna
        have s3 : below crlf (' ' :: (b ++ crlf)) = false := by simp [below] at s2 ⊢; omega
        simp only [List.cons_append, List.drop_succ_cons, List.drop_zero, s1, Option.bind_some, Option.any_some, s3]
        have ht := token_cases hv sp_ok hn
        simp only [List.cons_append] at ht
        rcases ht with ⟨a', b', e, hw, hb, t⟩ | ⟨-, t⟩
        · rw [t]
          simp only [andThen_some]
          have hlen : b'.length < n := by
            have := congrArg List.length e
            simp at this hl
            have : a'.length ≠ 0 := fun h => hw.1.1 (List.length_eq_zero_iff.1 h)
            omega
          obtain ⟨x, ex, hx⟩ := ih b' hb hlen
          rw [ex]
          cases x with
          | none => exact ⟨none, rfl, by rintro l ⟨⟩⟩
          | some l =>
            obtain ⟨h1, h2⟩ := hx l rfl
            refine ⟨some (a' :: l), rfl, ?_⟩
            rintro k ⟨⟩
            refine ⟨wfPayloads_cons hw h1, ?_⟩
            rw [e]
            rcases h2 with h2 | h2
            · exact .inl (by rw [h2]; simp [payloadsText])
            · exact .inr (by rw [h2]; simp [payloadsText])
        · exact ⟨none, by rw [t]; rfl, by rintro l ⟨⟩⟩
      · obtain ⟨x, e, hx⟩ := no_more hc.2 hm hn
        simp only [List.cons_append, List.drop_succ_cons, List.drop_zero, e, Option.bind_some, hx]
        have hb : below (c :: (v ++ crlf)) crlf = true := by simp [below]; omega
        obtain ⟨e1, r, rfl, he, -⟩ := hn
        have hl2 := lastToken_val (val := c :: v) ⟨by simp, hv⟩ he r
        simp only [List.cons_append] at hl2
        refine ⟨some [c :: v], by simp [lastPayload, hb, hl2, andThen_some], ?_⟩
        rintro l ⟨⟩
        exact ⟨⟨⟨by simp, hv⟩, by simpa using hm⟩, .inl (by simp [payloadsText])⟩

theorem payloads_write {crlf : List Char} (hn : AtEnd crlf) (n : Nat) (x : Str) (l : List Str) (h : WfPayloads (x :: l))
    (hl : (x ++ payloadsText l).length < n) :
    andThen (payloadLoop crlf n (x ++ payloadsText l ++ crlf)) (lastPayload crlf) = some (some (x :: l)) := by
  induction n generalizing x l with
  | zero => omega
  | succ n ih =>
    rw [loop_step]
    have hne : x ≠ [] := by
      cases l with
      | nil => exact h.1.1
      | cons y l => exact h.1.1.1
    obtain ⟨c, v, rfl⟩ := List.exists_cons_of_ne_nil hne
    cases l with
    | nil =>
      obtain ⟨ht, hs⟩ := h
      have hc := clean_cons.1 ht.2
      obtain ⟨z, e, hz⟩ := no_more hc.2 (by simpa using hs) hn
      have hb : below (c :: (v ++ crlf)) crlf = true := by simp [below]; omega
      obtain ⟨e1, r, rfl, he, -⟩ := hn
      have hl2 := lastToken_val ht he r
      simp only [List.cons_append] at hl2
      simp only [payloadsText, List.flatMap_nil, List.append_nil, List.cons_append, List.drop_succ_cons, List.drop_zero, e,
        Option.bind_some, hz]
      simp [lastPayload, hb, hl2, andThen_some]
    | cons y l =>
      obtain ⟨hw, hl'⟩ := h
      have hc := clean_cons.1 hw.1.2
      have hs : ' ' ∉ v := fun m => hw.2 (List.mem_cons_of_mem _ m)
      obtain ⟨s1, s2⟩ := search_in (b := y ++ payloadsText l) (crlf := crlf) hc.2 hs
      have s3 : below crlf (' ' :: (y ++ payloadsText l ++ crlf)) = false := by simp [below] at s2 ⊢; omega
      have t := token_word hw sp_ok (y ++ payloadsText l ++ crlf)
      have e1 : (c :: v) ++ payloadsText (y :: l) ++ crlf = (c :: v) ++ ' ' :: (y ++ payloadsText l ++ crlf) := by
        simp [payloadsText]
      have e2 : List.drop 1 ((c :: v) ++ ' ' :: (y ++ payloadsText l ++ crlf)) = (v ++ ' ' :: (y ++ payloadsText l)) ++ crlf := by
        simp
      rw [e1, t, e2, s1]
      simp only [Option.bind_some, Option.any_some, s3, andThen_some]
      rw [ih y l hl' (by simp [payloadsText] at hl ⊢; omega)]
      rfl

theorem readPayloads_eq (tmp crlf : List Char) :
    readPayloads tmp crlf = andThen (payloadLoop crlf (tmp.length + 1) tmp) (lastPayload crlf) := rfl

/-- Behind the end of the line there are no payloads. -/
theorem payloads_behind {e : Char} {r : List Char} (h : NUL ∈ r.drop 1) : readPayloads r (e :: r) = some (some []) := by
  rw [readPayloads_eq, loop_step]
  obtain ⟨x, ex, hx⟩ := no_more_behind h (crlf := e :: r) (by simp; omega)
  have hb : below r (e :: r) = false := by simp [below]
  simp only [ex, Option.bind_some, hx]
  simp [lastPayload, hb]

theorem port_read {v crlf : List Char} (hv : Clean v) (hn : AtEnd crlf) :
    ∃ x, readPort (v ++ crlf) = some x ∧ ∀ r, x = some r → ∃ b, Clean b ∧ r.2.2 = b ++ crlf ∧ Word ' ' r.1 ∧ '/' ∉ r.1 ∧
      (∀ y, r.2.1 = some y → Word ' ' y) ∧ v = r.1 ++ r.2.1.elim [] ('/' :: ·) ++ ' ' :: b := by
  have stop : ∃ x, (some none : Option (Option (Str × Option Str × List Char))) = some x ∧ ∀ r, x = some r →
      ∃ b, Clean b ∧ r.2.2 = b ++ crlf ∧ Word ' ' r.1 ∧ '/' ∉ r.1 ∧
      (∀ y, r.2.1 = some y → Word ' ' y) ∧ v = r.1 ++ r.2.1.elim [] ('/' :: ·) ++ ' ' :: b := ⟨none, rfl, by rintro k ⟨⟩⟩
  unfold readPort
  obtain ⟨slash, es, hs⟩ := search_any (c := '/') (p := v ++ crlf) (by simp [atEnd_nul hn])
  obtain ⟨space, ep, hp⟩ := search_any (c := ' ') (p := v ++ crlf) (by simp [atEnd_nul hn])
  simp only [es, ep, Option.bind_eq_bind, Option.bind_some]
  cases space with
  | none => exact stop
  | some space =>
    simp only
    split
    · next hlt =>
      rcases token_cases hv sl_ok hn with ⟨a, b, rfl, hw, hb, t⟩ | ⟨-, t⟩
      case inr => rw [t]; exact stop
      simp only [t, andThen_some]
      rcases token_cases hb sp_ok hn with ⟨a2, b2, rfl, hw2, hb2, t2⟩ | ⟨-, t2⟩
      case inr => rw [t2]; exact stop
      refine ⟨_, by rw [t2]; rfl, ?_⟩
      rintro r ⟨⟩
      refine ⟨b2, hb2, rfl, ⟨hw.1, ?_⟩, hw.2, by rintro y ⟨⟩; exact hw2, by simp⟩
      -- the blank is behind the slash
      intro hm
      obtain ⟨u, w, rfl, hu⟩ := mem_first hm
      have hcl := clean_append.1 hw.1.2
      obtain ⟨s1, -⟩ := search_in (c := ' ') (a := u) (b := w ++ '/' :: (a2 ++ ' ' :: b2)) (crlf := crlf) hcl.1 hu
      obtain ⟨s2, -⟩ := search_in (c := '/') (a := u ++ ' ' :: w) (b := a2 ++ ' ' :: b2) (crlf := crlf) hw.1.2 hw.2
      simp only [List.append_assoc, List.cons_append] at s1 s2 ep es
      rw [ep] at s1
      rw [es] at s2
      cases s1
      cases s2
      simp [below] at hlt
      omega
    · next hlt =>
      rcases token_cases hv sp_ok hn with ⟨a, b, rfl, hw, hb, t⟩ | ⟨-, t⟩
      case inr => rw [t]; exact stop
      refine ⟨_, by rw [t]; rfl, ?_⟩
      rintro r ⟨⟩
      refine ⟨b, hb, rfl, hw, ?_, (by rintro y ⟨⟩), by simp⟩
      intro hm
      obtain ⟨u, w, rfl, hu⟩ := mem_first hm
      have hcl := clean_append.1 hw.1.2
      obtain ⟨s1, -⟩ := search_in (c := '/') (a := u) (b := w ++ ' ' :: b) (crlf := crlf) hcl.1 hu
      obtain ⟨s2, -⟩ := search_in (c := ' ') (a := u ++ '/' :: w) (b := b) (crlf := crlf) hw.1.2 hw.2
      simp only [List.append_assoc, List.cons_append] at s1 s2 ep es
      rw [es] at s1
      rw [ep] at s2
      cases s1
      cases s2
      simp [below] at hlt
      omega

theorem port_write {p : Str} {k : Option Str} (hp : Word ' ' p) (hs : '/' ∉ p) (hk : ∀ y, k = some y → Word ' ' y)
    (b : Str) (crlf : List Char) (hb : Clean b) (hn : NUL ∈ crlf) :
    readPort (p ++ k.elim [] ('/' :: ·) ++ ' ' :: b ++ crlf) = some (some (p, k, b ++ crlf)) := by
  unfold readPort
  cases k with
  | none =>
    obtain ⟨s2, -⟩ := search_in (c := ' ') (a := p) (b := b) (crlf := crlf) hp.1.2 hp.2
    obtain ⟨x, es, hx⟩ := search_out (c := '/') (v := p) (crlf := ' ' :: (b ++ crlf)) hp.1.2 hs (by simp [hn])
    have hb2 : (x.any fun q => below q (' ' :: (b ++ crlf))) = false := by
      cases x with
      | none => rfl
      | some q =>
        obtain ⟨a, -, -, h⟩ := hx q rfl
        simpa using not_below_of h
    have t := token_word hp sp_ok (b ++ crlf)
    simp only [List.append_assoc, List.cons_append] at s2
    simp [s2, es, hb2, t, andThen_some]
  | some y =>
    have hy := hk y rfl
    obtain ⟨s1, -⟩ := search_in (c := '/') (a := p) (b := y ++ ' ' :: b) (crlf := crlf) hp.1.2 hs
    have hcl : Clean (p ++ '/' :: y) := clean_append.2 ⟨hp.1.2, clean_cons.2 ⟨sl_ok, hy.1.2⟩⟩
    have hno : ' ' ∉ p ++ '/' :: y := by simp [hp.2, hy.2]
    obtain ⟨s2, -⟩ := search_in (c := ' ') (a := p ++ '/' :: y) (b := b) (crlf := crlf) hcl hno
    have t := token_word ⟨hp.1, hs⟩ sl_ok (y ++ ' ' :: (b ++ crlf))
    have t2 := token_word hy sp_ok (b ++ crlf)
    simp only [List.append_assoc, List.cons_append] at s1 s2
    have hlt : below ('/' :: (y ++ ' ' :: (b ++ crlf))) (' ' :: (b ++ crlf)) = true := by simp [below]; omega
    simp [s1, s2, hlt, t, t2, andThen_some]

theorem readMedia_read {val crlf : List Char} (hv : Text val) (hn : AtEnd crlf) (hend : NUL ∈ crlf.drop 2 ∨ crlf.drop 2 = []) :
    (crlf.drop 2 = [] ∧ BareMedia val ∧ readMedia (val ++ crlf) crlf = none) ∨
    ∃ x, readMedia (val ++ crlf) crlf = some x ∧ ∀ m, x = some m → WfMediaLine m ∧
      (m.info = none ∧ m.connections = [] ∧ m.bandwidths = [] ∧ m.attributes = [] ∧ m.key = none) ∧
      (val = mediaText m ∨ val = mediaText m ++ [' ']) := by
  have stop : (crlf.drop 2 = [] ∧ BareMedia val ∧ (some none : Option (Option Media)) = none) ∨
      ∃ x, (some none : Option (Option Media)) = some x ∧ ∀ m, x = some m → WfMediaLine m ∧
      (m.info = none ∧ m.connections = [] ∧ m.bandwidths = [] ∧ m.attributes = [] ∧ m.key = none) ∧
      (val = mediaText m ∨ val = mediaText m ++ [' ']) := .inr ⟨none, rfl, by rintro k ⟨⟩⟩
  unfold readMedia
  rcases token_cases hv.2 sp_ok hn with ⟨a, v1, rfl, hwa, hv1, t1⟩ | ⟨-, t1⟩
  case inr => rw [t1, andThen_none]; exact stop
  rw [t1, andThen_some]
  obtain ⟨x, ex, hx⟩ := port_read hv1 hn
  simp only [ex]
  cases x with
  | none => exact stop
  | some r =>
    obtain ⟨v2, hv2, er, hp, hps, hk, e1⟩ := hx r rfl
    obtain ⟨p, k, q⟩ := r
    simp only at er hp hps hk e1
    subst er e1
    simp only [andThen_some]
    rcases token_cases hv2 sp_ok hn with ⟨t, v3, rfl, hwt, hv3, t3⟩ | ⟨hno, t3⟩
    · have ep : readProto (t ++ ' ' :: v3 ++ crlf) = some (some (t, v3 ++ crlf)) := by
        simp only [readProto, t3]; rfl
      rw [ep, andThen_some, readPayloads_eq]
      obtain ⟨x, ex, hx⟩ := payloads_read hn ((v3 ++ crlf).length + 1) v3 hv3 (by simp; omega)
      simp only [ex]
      cases x with
      | none => exact stop
      | some l =>
        obtain ⟨h1, h2⟩ := hx l rfl
        refine .inr ⟨_, rfl, ?_⟩
        rintro m ⟨⟩
        refine ⟨⟨a, p, t, rfl, rfl, rfl, hwa, hp, hps, hk, hwt.1, fun h => absurd h hwt.2, h1⟩, ⟨rfl, rfl, rfl, rfl, rfl⟩, ?_⟩
        rcases h2 with h2 | h2
        · exact .inl (by simp [mediaText, ← h2])
        · refine .inr ?_
          simp only [mediaText, Option.getD_some, List.append_assoc, ← h2, List.cons_append]
    · rcases lastToken_cases hv2 hn with ⟨h2, e3⟩ | ⟨-, e3⟩
      case inr =>
        have ep : readProto (v2 ++ crlf) = some none := by simp [readProto, t3, e3]
        rw [ep]; exact stop
      have ep : readProto (v2 ++ crlf) = some (some (v2, crlf.drop 1)) := by simp [readProto, t3, e3]
      rw [ep]
      simp only [andThen_some]
      have hbare : BareMedia (a ++ ' ' :: (p ++ k.elim [] ('/' :: ·) ++ ' ' :: v2)) := by
        refine ⟨a, p ++ k.elim [] ('/' :: ·), v2, by simp, hwa, ?_, h2, hno⟩
        refine ⟨⟨by simp [hp.1.1], clean_append.2 ⟨hp.1.2, ?_⟩⟩, ?_⟩
        · cases k with
          | none => intro c m; cases m
          | some y => exact clean_cons.2 ⟨sl_ok, (hk y rfl).1.2⟩
        · cases k with
          | none => simpa using hp.2
          | some y => simp [hp.2, (hk y rfl).2]
      by_cases hnul : NUL ∈ crlf.drop 2
      case neg =>
        have h0 := hend.resolve_left hnul
        refine .inl ⟨h0, hbare, ?_⟩
        have h1 : (crlf.drop 1).drop 1 = [] := by simpa using h0
        rw [readPayloads_eq, loop_step, h1]
        rfl
      obtain ⟨e, r, rfl, he, hr⟩ := hn
      have := payloads_behind (e := e) (r := r) (by simpa using hnul)
      simp only [List.drop_succ_cons, List.drop_zero, this, andThen_some]
      refine .inr ⟨_, rfl, ?_⟩
      rintro m ⟨⟩
      refine ⟨⟨a, p, v2, rfl, rfl, rfl, hwa, hp, hps, hk, h2, ?_, trivial⟩, ⟨rfl, rfl, rfl, rfl, rfl⟩, .inl ?_⟩
      · intro hm
        exact ⟨rfl, hno.resolve_left fun h => h hm⟩
      · simp [mediaText, payloadsText]

theorem readMedia_write {m : Media} (h : WfMediaLine m) {crlf : List Char} (hn : AtEnd crlf) (hc : NUL ∈ crlf.drop 2) :
    readMedia (mediaText m ++ crlf) crlf =
      some (some ⟨m.media, m.port, m.number, m.proto, m.payloads, none, [], [], [], none⟩) := by
  obtain ⟨a, p, t, ea, ep, et, ha, hp, hps, hk, ht, hbl, hl⟩ := h
  obtain ⟨ma, mp, mk, mt, ml, mi, mc, mb, mat, mkey⟩ := m
  simp only at ea ep et hk hbl hl
  subst ea ep et
  have e0 : mediaText ⟨some a, some p, mk, some t, ml, mi, mc, mb, mat, mkey⟩ ++ crlf =
      a ++ ' ' :: (p ++ mk.elim [] ('/' :: ·) ++ ' ' :: (t ++ payloadsText ml) ++ crlf) := by simp [mediaText]
  have hcl : ∀ l : List Str, WfPayloads l → Clean (payloadsText l) := by
    intro l
    induction l with
    | nil => intro _ c m; cases m
    | cons x l ih =>
      intro hw
      have h1 : Clean x ∧ WfPayloads l := by
        cases l with
        | nil => exact ⟨hw.1.2, trivial⟩
        | cons y l => exact ⟨hw.1.1.2, hw.2⟩
      have : payloadsText (x :: l) = ' ' :: (x ++ payloadsText l) := by simp [payloadsText]
      rw [this]
      exact clean_cons.2 ⟨sp_ok, clean_append.2 ⟨h1.1, ih h1.2⟩⟩
  unfold readMedia
  rw [e0, token_word ha sp_ok, andThen_some,
    port_write hp hps hk _ _ (clean_append.2 ⟨ht.2, hcl ml hl⟩) (atEnd_nul hn), andThen_some]
  cases ml with
  | nil =>
    have hno : ' ' ∉ t ∨ ∃ v, t = ' ' :: v := by
      by_cases hm : ' ' ∈ t
      · exact .inr (hbl hm).2
      · exact .inl hm
    obtain ⟨e, r, rfl, he, hr⟩ := hn
    have t1 := token_fail ht.2 sp_ok he hno r
    have epr : readProto (t ++ e :: r) = some (some (t, r)) := by simp [readProto, t1, lastToken_val ht he]
    simp only [payloadsText, List.flatMap_nil, List.append_nil, epr, andThen_some]
    rw [payloads_behind (by simpa using hc)]
    rfl
  | cons x l =>
    have hno : ' ' ∉ t := fun hm => by simpa using (hbl hm).1
    have e1 : t ++ payloadsText (x :: l) ++ crlf = t ++ ' ' :: (x ++ payloadsText l ++ crlf) := by simp [payloadsText]
    have t1 := token_word ⟨ht, hno⟩ sp_ok (x ++ payloadsText l ++ crlf)
    have epr : readProto (t ++ ' ' :: (x ++ payloadsText l ++ crlf)) = some (some (t, x ++ payloadsText l ++ crlf)) := by
      simp only [readProto, t1]; rfl
    rw [e1, epr, andThen_some, readPayloads_eq, payloads_write hn _ x l hl (by simp; omega)]
    rfl

/-! ## The frame of the line parsers -/

theorem before_at (k : List Char) (x : Char) (p : List Char) : before (k ++ x :: p) p = some x := by
  have h : p.length < (k ++ x :: p).length := by simp; omega
  have h2 : (k ++ x :: p).length - p.length - 1 = k.length := by simp; omega
  rw [before, if_pos h, h2]
  simp

/-- A line parser finds nothing of its own, or it finds a line and does `body`. -/
theorem line_cases {block pre buf : List Char} (hb : block = pre ++ buf) (hn : NUL ∈ buf) (first : Bool)
    (hp : first = true ∨ pre ≠ []) (name : Char) (body : Str → List Char → List Char → Option (Bool × Session)) (sdp : Session) :
    (∃ i, (i = ERR_ERROR ∨ i = ERR_DISCARD) ∧ line block first name body sdp buf = some (i, sdp, buf)) ∨
      ∃ k j val e r next, block = k ++ name :: '=' :: (val ++ e :: r) ∧ buf = j ++ '=' :: (val ++ e :: r) ∧
        Text val ∧ AtEnd (e :: r) ∧ (r = next ∨ r = '\n' :: next) ∧ NUL ∈ next ∧
        line block first name body sdp buf = (body val (val ++ e :: r) (e :: r)).bind fun x =>
          some (if x.1 then (WF, x.2, next) else (ERR_ERROR, x.2, buf)) := by
  obtain ⟨j, c, q, rfl, hj, hc, e⟩ := scan_spec (stop := fun c => c == '=' || c == NUL) ⟨NUL, hn, by simp⟩
  by_cases hc0 : c = NUL
  · have hls : lineStart block first name (j ++ c :: q) = some .error := by
      simp only [lineStart, e, deref, Option.bind_eq_bind, Option.bind_some, List.head?_cons, if_pos hc0]
      rfl
    exact .inl ⟨_, .inl rfl, by simp [line, hls]⟩
  have hce : c = '=' := by simpa [hc0] using hc
  subst hce
  by_cases hf : first = true ∧ j = []
  · have hls : lineStart block first name (j ++ '=' :: q) = some .discard := by
      simp only [lineStart, e, deref, Option.bind_eq_bind, Option.bind_some, List.head?_cons, if_pos hf]
      rfl
    exact .inl ⟨_, .inr rfl, by simp [line, hls]⟩
  have hne : pre ++ j ≠ [] := by
    intro h
    rw [List.append_eq_nil_iff] at h
    rcases hp with hp | hp
    · exact hf ⟨hp, h.2⟩
    · exact hp h.1
  obtain ⟨k, x, hk⟩ : ∃ k x, pre ++ j = k ++ [x] :=
    ⟨_, _, (List.dropLast_concat_getLast hne).symm⟩
  have hbl : block = k ++ x :: '=' :: q := by
    rw [hb, ← List.append_assoc, hk]; simp
  have hbef : before block ('=' :: q) = some x := by rw [hbl]; exact before_at ..
  by_cases hx : x ≠ name
  · exact .inl ⟨_, .inr rfl, by simp [line, lineStart, e, deref, hf, hbef, hx, show '=' ≠ NUL by decide]⟩
  obtain rfl : x = name := Classical.not_not.1 hx
  have hls : lineStart block first x (j ++ '=' :: q) = some (.value q) := by
    simp [lineStart, e, deref, hf, hbef, show '=' ≠ NUL by decide]
  have hnq : NUL ∈ q := by
    simp only [List.mem_append, List.mem_cons] at hn
    rcases hn with h | h | h
    · simpa using hj _ h
    · exact absurd h (by decide)
    · exact h
  obtain ⟨val, d, r, rfl, hv, hd, e2⟩ := scan_spec (stop := fun c => c == '\r' || c == '\n' || c == NUL) ⟨NUL, hnq, by simp⟩
  by_cases hd0 : d = NUL
  · have hle : lineEnd (val ++ d :: r) = some none := by
      simp only [lineEnd, e2, deref, Option.bind_eq_bind, Option.bind_some, List.head?_cons, if_pos hd0]
      rfl
    exact .inl ⟨_, .inl rfl, by simp [line, hls, hle]⟩
  by_cases hv0 : val = []
  · have hle : lineEnd (val ++ d :: r) = some none := by
      simp only [lineEnd, e2, deref, Option.bind_eq_bind, Option.bind_some, List.head?_cons, if_neg hd0, if_pos hv0]
      rfl
    exact .inl ⟨_, .inl rfl, by simp [line, hls, hle]⟩
  have hcl : Clean val := by
    intro c m
    have := hv c m
    simp only [Bool.or_eq_false_iff, beq_eq_false_iff_ne] at this
    exact ⟨this.1.1, this.1.2, this.2⟩
  have hd1 : d = '\r' ∨ d = '\n' := by simpa [hd0] using hd
  have hnr : NUL ∈ r := by
    simp only [List.mem_append, List.mem_cons] at hnq
    rcases hnq with h | h | h
    · exact absurd rfl (hcl _ h).2.2
    · exact absurd h.symm hd0
    · exact h
  have hle : lineEnd (val ++ d :: r) = some (some (val, d :: r)) := by simp [lineEnd, e2, deref, hd0, hv0]
  obtain ⟨next, hnx, hnn, eln⟩ : ∃ next, (r = next ∨ r = '\n' :: next) ∧ NUL ∈ next ∧ lineNext (d :: r) = some next := by
    cases r with
    | nil => cases hnr
    | cons z r =>
      by_cases hz : z = '\n'
      · subst hz
        exact ⟨r, .inr rfl, by simpa [show NUL ≠ '\n' by decide] using hnr, by simp [lineNext, deref]⟩
      · exact ⟨z :: r, .inl rfl, hnr, by simp [lineNext, deref, hz]⟩
  refine .inr ⟨k, j, val, d, r, next, hbl, rfl, ⟨hv0, hcl⟩, ⟨d, r, rfl, hd1, hnr⟩, hnx, hnn, ?_⟩
  simp only [line, hls, hle, eln, Option.bind_eq_bind, Option.bind_some]
  congr 1
  funext x
  split <;> simp [*]

/-- A line parser at a line that begins with a name. -/
theorem line_at {block pre : List Char} {n : Char} {val rest : List Char} (hn : n ≠ '=' ∧ n ≠ NUL) (hv : Text val)
    (hb : block = pre ++ n :: '=' :: (val ++ '\r' :: '\n' :: rest)) (first : Bool) (name : Char)
    (body : Str → List Char → List Char → Option (Bool × Session)) (sdp : Session) :
    line block first name body sdp (n :: '=' :: (val ++ '\r' :: '\n' :: rest)) =
      if n = name then
        (body val (val ++ '\r' :: '\n' :: rest) ('\r' :: '\n' :: rest)).bind fun x =>
          some (if x.1 then (WF, x.2, rest) else (ERR_ERROR, x.2, n :: '=' :: (val ++ '\r' :: '\n' :: rest)))
      else some (ERR_DISCARD, sdp, n :: '=' :: (val ++ '\r' :: '\n' :: rest)) := by
  have e : scan (fun c => c == '=' || c == NUL) (n :: '=' :: (val ++ '\r' :: '\n' :: rest)) =
      some ([n], '=' :: (val ++ '\r' :: '\n' :: rest)) :=
    scan_run (a := [n]) (by simp [hn]) (by simp)
  have hbef : before block ('=' :: (val ++ '\r' :: '\n' :: rest)) = some n := by rw [hb]; exact before_at ..
  by_cases hx : n = name
  · subst hx
    have hls : lineStart block first n (n :: '=' :: (val ++ '\r' :: '\n' :: rest)) =
        some (.value (val ++ '\r' :: '\n' :: rest)) := by
      simp [lineStart, e, deref, hbef, show '=' ≠ NUL by decide]
    have e2 : scan (fun c => c == '\r' || c == '\n' || c == NUL) (val ++ '\r' :: '\n' :: rest) =
        some (val, '\r' :: '\n' :: rest) := by
      refine scan_run ?_ (by simp)
      intro x m
      have := hv.2 x m
      simp [this]
    have hle : lineEnd (val ++ '\r' :: '\n' :: rest) = some (some (val, '\r' :: '\n' :: rest)) := by
      simp [lineEnd, e2, deref, hv.1, show '\r' ≠ NUL by decide]
    have eln : lineNext ('\r' :: '\n' :: rest) = some rest := by simp [lineNext, deref]
    simp only [line, hls, hle, eln, Option.bind_eq_bind, Option.bind_some, if_true]
    congr 1
    funext x
    split <;> simp [*]
  · have hls : lineStart block first name (n :: '=' :: (val ++ '\r' :: '\n' :: rest)) = some .discard := by
      simp [lineStart, e, deref, hbef, hx, show '=' ≠ NUL by decide]
    simp [line, hls, hx]

end Osip.Sdp
