import Verif.Sdp.PropsParse

/-!
# Session descriptions: the text of a session is read back

C94: for every session that can be written, its text is read and gives the session again.
-/

set_option autoImplicit false

namespace Osip.Sdp

open Osip

/-! ## The text of a session -/

/-- A line. -/
def lineText (c : Char) (v : Str) : Str := c :: '=' :: (v ++ ['\r', '\n'])

/-- A line for each element. -/
def linesText {α : Type} (c : Char) (val : α → Str) (l : List α) : Str := l.flatMap fun a => lineText c (val a)

/-- The value of the `o` line. -/
def originText (s : Session) : Str :=
  s.username.getD [] ++ ' ' :: s.sess_id.getD [] ++ ' ' :: s.sess_version.getD [] ++ ' ' :: s.nettype.getD [] ++
    ' ' :: s.addrtype.getD [] ++ ' ' :: s.addr.getD []

def keyText (k : Key) : Str := pairText (k.keytype.getD []) k.keydata

def attributeText (a : Attribute) : Str := pairText (a.field.getD []) a.value

/-- A `t` line and its `r` lines. -/
def timeLines (t : TimeDescr) : Str := lineText 't' (timeText t) ++ linesText 'r' id t.repeats

/-- The lines of a media behind its `m` line. -/
def mediaRest (m : Media) : Str :=
  linesText 'i' id m.info.toList ++ (linesText 'c' connectionText m.connections ++ (linesText 'b' bandwidthText m.bandwidths ++
    (linesText 'k' keyText m.key.toList ++ linesText 'a' attributeText m.attributes)))

/-- An `m` line and the lines that belong to it. -/
def mediaLinesText (m : Media) : Str := lineText 'm' (mediaText m) ++ mediaRest m

/-- The text of a session (RFC 2327, section 6): its lines in their order. -/
def sessionText (s : Session) : Str :=
  lineText 'v' (s.version.getD []) ++ (lineText 'o' (originText s) ++ (linesText 's' id s.name.toList ++
  (linesText 'i' id s.info.toList ++ (linesText 'u' id s.uri.toList ++ (linesText 'e' id s.emails ++
  (linesText 'p' id s.phones ++ (linesText 'c' connectionText s.connection.toList ++
  (linesText 'b' bandwidthText s.bandwidths ++ (s.times.flatMap timeLines ++ (linesText 'z' id s.zone.toList ++
  (linesText 'k' keyText s.key.toList ++ (linesText 'a' attributeText s.attributes ++ s.medias.flatMap mediaLinesText))))))))))))

/-! ## Line parsers on lines -/

/-- A pointer into the block. -/
def Sub (block p : List Char) : Prop := ∃ pre, block = pre ++ p

theorem sub_drop {block a p : List Char} (h : Sub block (a ++ p)) : Sub block p := by
  obtain ⟨pre, rfl⟩ := h
  exact ⟨pre ++ a, by simp⟩

/-- The text goes on with a line with one of the letters `L`, or it ends, if that may be. -/
def Begins (e : Prop) (L : List Char) (rest : List Char) : Prop :=
  (e ∧ rest = [NUL]) ∨ ∃ c ∈ L, (c ≠ '=' ∧ c ≠ NUL ∧ c ≠ '\r' ∧ c ≠ '\n') ∧ ∃ val r, Text val ∧ rest = lineText c val ++ r

def Letter (c : Char) : Prop := c ≠ '=' ∧ c ≠ NUL ∧ c ≠ '\r' ∧ c ≠ '\n'

theorem begins_line {e : Prop} {c : Char} {L : List Char} {val : Str} (hc : Letter c) (hv : Text val) (r : List Char) :
    Begins e (c :: L) (lineText c val ++ r) := .inr ⟨c, List.mem_cons_self .., hc, val, r, hv, rfl⟩

theorem begins_cons {e : Prop} {c : Char} {L rest : List Char} (h : Begins e L rest) : Begins e (c :: L) rest := by
  rcases h with h | ⟨d, m, hd⟩
  · exact .inl h
  · exact .inr ⟨d, List.mem_cons_of_mem _ m, hd⟩

theorem begins_lines {α : Type} {e : Prop} {c : Char} {L rest : List Char} {val : α → Str} {l : List α} (hc : Letter c)
    (hv : ∀ a ∈ l, Text (val a)) (h : Begins e L rest) : Begins e (c :: L) (linesText c val l ++ rest) := by
  cases l with
  | nil => exact begins_cons h
  | cons a l =>
    have := begins_line (e := e) (L := L) hc (hv a (List.mem_cons_self ..)) (linesText c val l ++ rest)
    simpa [linesText] using this

/-- `f` reads the line and changes `s` to `s'`. -/
def Reads (block : List Char) (f : Parser) (c : Char) (val : Str) (s s' : Session) : Prop :=
  ∀ rest, Sub block (lineText c val ++ rest) → NUL ∈ rest → f s (lineText c val ++ rest) = some (1, s', rest)

/-- `f` leaves other lines alone. -/
def Skips (block : List Char) (f : Parser) (c : Char) : Prop :=
  ∀ L s rest, Sub block rest → Begins False L rest → c ∉ L → f s rest = some (0, s, rest)

theorem skips {block : List Char} {first : Bool} {c : Char} {body : Session → Str → List Char → List Char → Option (Bool × Session)} :
    Skips block (fun s p => line block first c (body s) s p) c := by
  rintro L s rest ⟨pre, hb⟩ (⟨⟨⟩, -⟩ | ⟨d, hm, hd, val, r, hv, rfl⟩) hc
  have hne : d ≠ c := fun h => hc (h ▸ hm)
  have e : lineText d val ++ r = d :: '=' :: (val ++ '\r' :: '\n' :: r) := by simp [lineText]
  rw [e] at hb ⊢
  simp only [line_at ⟨hd.1, hd.2.1⟩ hv hb, if_neg hne]

theorem reads {block : List Char} {first : Bool} {c : Char} {body : Session → Str → List Char → List Char → Option (Bool × Session)}
    {val : Str} {s s' : Session} (hc : Letter c) (hv : Text val)
    (h : ∀ crlf, AtEnd crlf → NUL ∈ crlf.drop 2 → body s val (val ++ crlf) crlf = some (true, s')) :
    Reads block (fun s p => line block first c (body s) s p) c val s s' := by
  rintro rest ⟨pre, hb⟩ hn
  have e : lineText c val ++ rest = c :: '=' :: (val ++ '\r' :: '\n' :: rest) := by simp [lineText]
  rw [e] at hb ⊢
  have := h ('\r' :: '\n' :: rest) ⟨_, _, rfl, .inl rfl, List.mem_cons_of_mem _ hn⟩ (by simpa using hn)
  simp only [line_at ⟨hc.1, hc.2.1⟩ hv hb, if_true, this, Option.bind_some]

/-! ## Parts on lines -/

theorem lineText_ne {c : Char} {v : Str} {rest : List Char} : lineText c v ++ rest ≠ [NUL] := by simp [lineText]

/-- Behind the last line of the text reading has stopped. -/
def goOn (s : Session) (rest : List Char) : Option Step := if rest = [NUL] then some (.stop 0 s) else some (.go s rest)

theorem ended_goOn {L rest : List Char} (h : Begins True L rest) (s : Session) : ended s rest = goOn s rest := by
  rcases h with ⟨-, rfl⟩ | ⟨c, -, ⟨-, h1, h2, h3⟩, v, r, -, rfl⟩
  · simp [ended, goOn, deref, OSIP_SUCCESS]
  · simp [ended, goOn, lineText, deref, h1, h2, h3]

theorem begins_of {L rest : List Char} (h : Begins False L rest) : Begins True L rest := by
  rcases h with ⟨⟨⟩, -⟩ | h
  exact .inr h

theorem begins_not_end {L rest : List Char} (h : Begins True L rest) (hr : rest ≠ [NUL]) : Begins False L rest := by
  rcases h with ⟨-, h⟩ | h
  · exact absurd h hr
  · exact .inr h

theorem begins_nul {e : Prop} {L block rest : List Char} (hn : NUL ∈ block.drop (block.length - 1)) (hs : Sub block rest) (h : Begins e L rest) :
    NUL ∈ rest := by
  rcases h with ⟨-, rfl⟩ | ⟨c, -, -, v, r, -, rfl⟩
  · simp
  · obtain ⟨pre, rfl⟩ := hs
    have hl : 0 < (lineText c v ++ r).length := by simp [lineText]
    have : (pre ++ (lineText c v ++ r)).length - 1 = pre.length + ((lineText c v ++ r).length - 1) := by
      simp only [List.length_append] at hl ⊢; omega
    rw [this, List.drop_append] at hn
    have h0 : pre.drop (pre.length + ((lineText c v ++ r).length - 1)) = [] := List.drop_eq_nil_of_le (by omega)
    rw [h0, List.nil_append] at hn
    exact List.mem_of_mem_drop hn

variable {block : List Char} {f : Parser} {c : Char} {L rest : List Char}

theorem optional_lines {α : Type} {val : α → Str} {a : Option α} {s : Session} {st : Option α → Session} (hk : Skips block f c)
    (h0 : st none = s) (hr : ∀ x, a = some x → Reads block f c (val x) s (st (some x))) (hL : c ∉ L)
    (hs : Sub block (linesText c val a.toList ++ rest)) (hb : Begins False L rest) (hn : NUL ∈ rest) :
    optional f s (linesText c val a.toList ++ rest) = some (.go (st a) rest) := by
  cases a with
  | none =>
    have e := hk L s rest (sub_drop hs) hb hL
    simp [optional, linesText, e, h0]
  | some x =>
    have e : linesText c val [x] ++ rest = lineText c (val x) ++ rest := by simp [linesText]
    simp only [Option.toList] at hs ⊢
    rw [e] at hs ⊢
    simp [optional, hr x rfl rest hs hn]

theorem many_lines {α : Type} {val : α → Str} {st : List α → Session} (hk : Skips block f c) (hL : c ∉ L) (hb : Begins False L rest)
    (hn : NUL ∈ rest) (n : Nat) (done l : List α) (hl : l.length < n)
    (hr : ∀ d x, x ∈ l → Reads block f c (val x) (st d) (st (d ++ [x]))) (hs : Sub block (linesText c val l ++ rest)) :
    many f n (st done) (linesText c val l ++ rest) = some (.go (st (done ++ l)) rest) := by
  induction n generalizing done l with
  | zero => omega
  | succ n ih =>
    cases l with
    | nil =>
      have e := hk L (st done) rest (sub_drop hs) hb hL
      simp [many, linesText, e]
    | cons x l =>
      have e : linesText c val (x :: l) ++ rest = lineText c (val x) ++ (linesText c val l ++ rest) := by simp [linesText]
      rw [e] at hs ⊢
      have h1 := hr done x (List.mem_cons_self ..) _ hs (by simp [hn])
      have h2 := ih (done ++ [x]) l (by simpa using hl) (fun d y m => hr d y (List.mem_cons_of_mem _ m)) (sub_drop hs)
      simp only [many, h1, Option.bind_eq_bind, Option.bind_some]
      simpa using h2

theorem next_go {s : Session} {p : List Char} (g : Part) : Step.next (some (.go s p)) g = g s p := rfl
theorem next_stop {s : Session} {i : Int} (g : Part) : Step.next (some (.stop i s)) g = some (.stop i s) := rfl

theorem goOn_line {s : Session} {v : Str} (g : Part) : Step.next (goOn s (lineText c v ++ rest)) g = g s (lineText c v ++ rest) := by
  rw [goOn, if_neg lineText_ne]; rfl

theorem manyEnd_lines {α : Type} {val : α → Str} {st : List α → Session} (hk : Skips block f c) (hc : Letter c) (hL : c ∉ L)
    (hb : Begins True L rest) (hn : NUL ∈ rest) (n : Nat) (done l : List α) (hl : l.length < n)
    (hr : ∀ d x, x ∈ l → Reads block f c (val x) (st d) (st (d ++ [x]))) (ht : ∀ x ∈ l, Text (val x))
    (hs : Sub block (linesText c val l ++ rest)) :
    Step.next (goOn (st done) (linesText c val l ++ rest)) (manyEnd f n) = goOn (st (done ++ l)) rest := by
  induction n generalizing done l with
  | zero => omega
  | succ n ih =>
    cases l with
    | nil =>
      simp only [linesText, List.flatMap_nil, List.nil_append, List.append_nil] at hs ⊢
      by_cases he : rest = [NUL]
      · simp [goOn, he, next_stop]
      have e := hk L (st done) rest hs (begins_not_end hb he) hL
      rw [goOn, if_neg he, next_go, manyEnd]
      simp [e, ended_goOn hb, goOn, he, next_go]
    | cons x l =>
      have e : linesText c val (x :: l) ++ rest = lineText c (val x) ++ (linesText c val l ++ rest) := by simp [linesText]
      rw [e] at hs ⊢
      have h1 := hr done x (List.mem_cons_self ..) _ hs (by simp [hn])
      have ht2 : ∀ x ∈ l, Text (val x) := fun y m => ht y (List.mem_cons_of_mem _ m)
      have h2 := ih (done ++ [x]) l (by simpa using hl) (fun d y m => hr d y (List.mem_cons_of_mem _ m)) ht2 (sub_drop hs)
      rw [goOn_line, manyEnd]
      simp only [h1, Option.bind_eq_bind, Option.bind_some, ended_goOn (begins_lines hc ht2 hb)]
      simpa using h2

theorem optionalEnd_lines {α : Type} {val : α → Str} {a : Option α} {s : Session} {st : Option α → Session} (hk : Skips block f c)
    (h0 : st none = s) (hr : ∀ x, a = some x → Reads block f c (val x) s (st (some x))) (hL : a = none → c ∉ L)
    (hs : Sub block (linesText c val a.toList ++ rest)) (hb : Begins True L rest) (hn : NUL ∈ rest) :
    Step.next (goOn s (linesText c val a.toList ++ rest)) (optionalEnd f) = goOn (st a) rest := by
  cases a with
  | none =>
    simp only [linesText, Option.toList, List.flatMap_nil, List.nil_append] at hs ⊢
    by_cases he : rest = [NUL]
    · simp [goOn, he, next_stop, h0]
    have e := hk L s rest hs (begins_not_end hb he) (hL rfl)
    rw [goOn, if_neg he, next_go, optionalEnd]
    simp [optional, e, next_go, ended_goOn hb, h0]
  | some x =>
    have e : linesText c val [x] ++ rest = lineText c (val x) ++ rest := by simp [linesText]
    simp only [Option.toList] at hs ⊢
    rw [e] at hs ⊢
    rw [goOn_line, optionalEnd]
    simp [optional, hr x rfl rest hs hn, next_go, ended_goOn hb]

/-! ## The values of the lines -/

theorem letter_v : Letter 'v' := by unfold Letter; decide
theorem letter_o : Letter 'o' := by unfold Letter; decide
theorem letter_s : Letter 's' := by unfold Letter; decide
theorem letter_i : Letter 'i' := by unfold Letter; decide
theorem letter_u : Letter 'u' := by unfold Letter; decide
theorem letter_e : Letter 'e' := by unfold Letter; decide
theorem letter_p : Letter 'p' := by unfold Letter; decide
theorem letter_c : Letter 'c' := by unfold Letter; decide
theorem letter_b : Letter 'b' := by unfold Letter; decide
theorem letter_t : Letter 't' := by unfold Letter; decide
theorem letter_r : Letter 'r' := by unfold Letter; decide
theorem letter_z : Letter 'z' := by unfold Letter; decide
theorem letter_k : Letter 'k' := by unfold Letter; decide
theorem letter_a : Letter 'a' := by unfold Letter; decide
theorem letter_m : Letter 'm' := by unfold Letter; decide

theorem text_append {a b : Str} (ha : Text a) (hb : Clean b) : Text (a ++ b) :=
  ⟨by have := ha.1; simp [this], clean_append.2 ⟨ha.2, hb⟩⟩

theorem clean_opt {d : Char} (hd : d ≠ '\r' ∧ d ≠ '\n' ∧ d ≠ NUL) {o : Option Str} (h : ∀ x, o = some x → Clean x) :
    Clean (o.elim [] (d :: ·)) := by
  cases o with
  | none => simp [Clean]
  | some x => exact clean_cons.2 ⟨hd, h x rfl⟩

theorem text_pair {a b : Option Str} (h : WfPair a b) : Text (pairText (a.getD []) b) := by
  obtain ⟨x, rfl, hx, hb⟩ := h
  exact text_append hx.1 (clean_opt co_ok fun y e => (hb y e).2)

theorem text_bandwidth {b : Bandwidth} (h : WfBandwidth b) : Text (bandwidthText b) := by
  obtain ⟨t, v, rfl, ht, hv⟩ := h
  exact text_append ht.1 (clean_cons.2 ⟨co_ok, hv.2⟩)

theorem text_time {t : TimeDescr} (h : WfTimeLine t) : Text (timeText t) := by
  obtain ⟨a, b, ea, eb, ha, hb⟩ := h
  unfold timeText
  rw [ea, eb]
  exact text_append ha.1 (clean_cons.2 ⟨sp_ok, hb.2⟩)

theorem text_connection {x : Connection} (h : WfConnection x) : Text (connectionText x) := by
  obtain ⟨n, t, a, en, et, ea, hwn, hwt, hwa, httl, hint, -⟩ := h
  unfold connectionText
  rw [en, et, ea]
  refine text_append (text_append (text_append (text_append hwn.1 ?_) ?_) ?_) ?_
  · exact clean_cons.2 ⟨sp_ok, hwt.1.2⟩
  · exact clean_cons.2 ⟨sp_ok, hwa.1.2⟩
  · exact clean_opt sl_ok fun x e => (httl x e).1.2
  · exact clean_opt sl_ok fun x e => (hint x e).2

theorem clean_payloads {l : List Str} (h : WfPayloads l) : Clean (payloadsText l) := by
  induction l with
  | nil => simp [payloadsText, Clean]
  | cons x l ih =>
    have e : payloadsText (x :: l) = ' ' :: (x ++ payloadsText l) := by simp [payloadsText]
    rw [e]
    cases l with
    | nil => exact clean_cons.2 ⟨sp_ok, clean_append.2 ⟨h.1.2, by simp [payloadsText, Clean]⟩⟩
    | cons y l => exact clean_cons.2 ⟨sp_ok, clean_append.2 ⟨h.1.1.2, ih h.2⟩⟩

theorem text_media {m : Media} (h : WfMediaLine m) : Text (mediaText m) := by
  obtain ⟨a, p, t, ea, ep, et, ha, hp, -, hk, ht, -, hl⟩ := h
  unfold mediaText
  rw [ea, ep, et]
  refine text_append (text_append (text_append (text_append ha.1 ?_) ?_) ?_) (clean_payloads hl)
  · exact clean_cons.2 ⟨sp_ok, hp.1.2⟩
  · exact clean_opt sl_ok fun x e => (hk x e).1.2
  · exact clean_cons.2 ⟨sp_ok, ht.2⟩

/-! ## The line parsers -/

variable {s : Session}

theorem reads_v {x : Str} (h : Text x) : Reads block (parse_v block) 'v' x s { s with version := some x } :=
  reads letter_v h fun _ _ _ => rfl
theorem reads_s {x : Str} (h : Text x) : Reads block (parse_s block) 's' x s { s with name := some x } :=
  reads letter_s h fun _ _ _ => rfl
theorem reads_u {x : Str} (h : Text x) : Reads block (parse_u block) 'u' x s { s with uri := some x } :=
  reads letter_u h fun _ _ _ => rfl
theorem reads_e {x : Str} (h : Text x) : Reads block (parse_e block) 'e' x s { s with emails := s.emails ++ [x] } :=
  reads letter_e h fun _ _ _ => rfl
theorem reads_p {x : Str} (h : Text x) : Reads block (parse_p block) 'p' x s { s with phones := s.phones ++ [x] } :=
  reads letter_p h fun _ _ _ => rfl
theorem reads_z {x : Str} (h : Text x) : Reads block (parse_z block) 'z' x s { s with zone := some x } :=
  reads letter_z h fun _ _ _ => rfl
theorem reads_i {x : Str} (h : Text x) : Reads block (parse_i block) 'i' x s
    (place s (fun s => { s with info := some x }) fun m => { m with info := some x }) :=
  reads letter_i h fun _ _ _ => rfl
theorem reads_c {x : Connection} (h : WfConnection x) : Reads block (parse_c block) 'c' (connectionText x) s
    (place s (fun s => { s with connection := some x }) fun m => { m with connections := m.connections ++ [x] }) :=
  reads letter_c (text_connection h) fun _ ha _ => by simp [readConnection_write h ha]
theorem reads_b {x : Bandwidth} (h : WfBandwidth x) : Reads block (parse_b block) 'b' (bandwidthText x) s
    (place s (fun s => { s with bandwidths := s.bandwidths ++ [x] }) fun m => { m with bandwidths := m.bandwidths ++ [x] }) :=
  reads letter_b (text_bandwidth h) fun _ ha _ => by simp [readBandwidth_write h ha]
theorem reads_t {x : TimeDescr} (h : WfTimeLine x) : Reads block (parse_t block) 't' (timeText x) s
    { s with times := s.times ++ [{ x with repeats := [] }] } :=
  reads letter_t (text_time h) fun _ ha _ => by simp [readTime_write h ha]
theorem reads_r {x : Str} {l : List TimeDescr} {t : TimeDescr} (h : Text x) (e : s.times = l ++ [t]) :
    Reads block (parse_r block) 'r' x s { s with times := l ++ [{ t with repeats := t.repeats ++ [x] }] } :=
  reads letter_r h fun _ _ _ => by simp [e]
theorem reads_k {x : Key} (h : WfPair x.keytype x.keydata) : Reads block (parse_k block) 'k' (keyText x) s
    (place s (fun s => { s with key := some x }) fun m => { m with key := some x }) :=
  reads letter_k (text_pair h) fun _ ha _ => by
    obtain ⟨kt, kd⟩ := x
    obtain ⟨y, hy, h2⟩ := h
    simp only at hy h2
    subst hy
    have := readPair_write ⟨y, rfl, h2⟩ ha
    simp [keyText, this]
theorem reads_a {x : Attribute} (h : WfPair x.field x.value) : Reads block (parse_a block) 'a' (attributeText x) s
    (place s (fun s => { s with attributes := s.attributes ++ [x] }) fun m => { m with attributes := m.attributes ++ [x] }) :=
  reads letter_a (text_pair h) fun _ ha _ => by
    obtain ⟨kt, kd⟩ := x
    obtain ⟨y, hy, h2⟩ := h
    simp only at hy h2
    subst hy
    have := readPair_write ⟨y, rfl, h2⟩ ha
    simp [attributeText, this]
/-- The media of an `m` line alone. -/
def mediaHead (m : Media) : Media := ⟨m.media, m.port, m.number, m.proto, m.payloads, none, [], [], [], none⟩
theorem reads_m {x : Media} (h : WfMediaLine x) : Reads block (parse_m block) 'm' (mediaText x) s
    { s with medias := s.medias ++ [mediaHead x] } :=
  reads letter_m (text_media h) fun _ ha hd => by simp [readMedia_write h ha hd, mediaHead]

theorem text_origin (h : Fields s) (ho : Origin s) : Text (originText s) := by
  obtain ⟨h1, h2, h3, h4, h5, h6⟩ := ho
  obtain ⟨x1, e1⟩ := Option.ne_none_iff_exists'.1 h1
  obtain ⟨x2, e2⟩ := Option.ne_none_iff_exists'.1 h2
  obtain ⟨x3, e3⟩ := Option.ne_none_iff_exists'.1 h3
  obtain ⟨x4, e4⟩ := Option.ne_none_iff_exists'.1 h4
  obtain ⟨x5, e5⟩ := Option.ne_none_iff_exists'.1 h5
  obtain ⟨x6, e6⟩ := Option.ne_none_iff_exists'.1 h6
  unfold originText
  rw [e1, e2, e3, e4, e5, e6]
  refine text_append (text_append (text_append (text_append (text_append (h.username _ e1).1 ?_) ?_) ?_) ?_) ?_
  · exact clean_cons.2 ⟨sp_ok, (h.sess_id _ e2).1.2⟩
  · exact clean_cons.2 ⟨sp_ok, (h.sess_version _ e3).1.2⟩
  · exact clean_cons.2 ⟨sp_ok, (h.nettype _ e4).1.2⟩
  · exact clean_cons.2 ⟨sp_ok, (h.addrtype _ e5).1.2⟩
  · exact clean_cons.2 ⟨sp_ok, (h.addr _ e6).2⟩

theorem reads_o {q : Session} (h : Fields s) (ho : Origin s) : Reads block (parse_o block) 'o' (originText s) q
    { q with username := s.username, sess_id := s.sess_id, sess_version := s.sess_version, nettype := s.nettype, addrtype := s.addrtype, addr := s.addr } := by
  refine reads letter_o (text_origin h ho) fun crlf ha _ => ?_
  obtain ⟨h1, h2, h3, h4, h5, h6⟩ := ho
  obtain ⟨x1, e1⟩ := Option.ne_none_iff_exists'.1 h1
  obtain ⟨x2, e2⟩ := Option.ne_none_iff_exists'.1 h2
  obtain ⟨x3, e3⟩ := Option.ne_none_iff_exists'.1 h3
  obtain ⟨x4, e4⟩ := Option.ne_none_iff_exists'.1 h4
  obtain ⟨x5, e5⟩ := Option.ne_none_iff_exists'.1 h5
  obtain ⟨x6, e6⟩ := Option.ne_none_iff_exists'.1 h6
  obtain ⟨e, r, rfl, he, -⟩ := ha
  have t1 := token_word (h.username _ e1) sp_ok (x2 ++ ' ' :: (x3 ++ ' ' :: (x4 ++ ' ' :: (x5 ++ ' ' :: (x6 ++ e :: r)))))
  have t2 := token_word (h.sess_id _ e2) sp_ok (x3 ++ ' ' :: (x4 ++ ' ' :: (x5 ++ ' ' :: (x6 ++ e :: r))))
  have t3 := token_word (h.sess_version _ e3) sp_ok (x4 ++ ' ' :: (x5 ++ ' ' :: (x6 ++ e :: r)))
  have t4 := token_word (h.nettype _ e4) sp_ok (x5 ++ ' ' :: (x6 ++ e :: r))
  have t5 := token_word (h.addrtype _ e5) sp_ok (x6 ++ e :: r)
  have t6 := lastToken_val (h.addr _ e6) he r
  have eo : originText s ++ e :: r = x1 ++ ' ' :: (x2 ++ ' ' :: (x3 ++ ' ' :: (x4 ++ ' ' :: (x5 ++ ' ' :: (x6 ++ e :: r))))) := by
    simp [originText, e1, e2, e3, e4, e5, e6]
  rw [eo, e1, e2, e3, e4, e5, e6]
  simp only [t1, t2, t3, t4, t5, t6, Option.bind_eq_bind, Option.bind_some]
  rfl

/-! ## Times and media -/

theorem next_assoc (x : Option Step) (f g : Part) : Step.next (Step.next x f) g = Step.next x fun s p => Step.next (f s p) g := by
  rcases x with _ | _ | _ <;> rfl

theorem lines_length {α : Type} (c : Char) (val : α → Str) (l : List α) : l.length ≤ (linesText c val l).length := by
  induction l with
  | nil => simp
  | cons a l ih => simp only [linesText, List.flatMap_cons, List.length_append, List.length_cons, lineText] at ih ⊢; omega

theorem sub_length {p : List Char} (h : Sub block p) : p.length ≤ block.length := by
  obtain ⟨pre, rfl⟩ := h; simp

theorem lines_fuel {α : Type} {c : Char} {val : α → Str} {l : List α} (h : Sub block (linesText c val l ++ rest)) :
    l.length < block.length + 1 := by
  have h1 := sub_length h
  have h2 := lines_length c val l
  rw [List.length_append] at h1
  omega

theorem begins_times {e : Prop} {l : List TimeDescr} (hl : ∀ t ∈ l, WfTime t) (hb : Begins e L rest) :
    Begins e ('t' :: L) (l.flatMap timeLines ++ rest) := by
  cases l with
  | nil => exact begins_cons hb
  | cons t l =>
    have := begins_line (e := e) (L := L) letter_t (text_time (hl t (List.mem_cons_self ..)).1)
      (linesText 'r' id t.repeats ++ (l.flatMap timeLines ++ rest))
    simpa [timeLines] using this

theorem repeats_lines (done : List TimeDescr) (t : TimeDescr) (rs : List Str) (hr : ∀ x ∈ rs, Text x) (hL : 'r' ∉ L)
    (hb : Begins True L rest) (hn : NUL ∈ rest) (hs : Sub block (linesText 'r' id rs ++ rest)) :
    Step.next (goOn { s with times := done ++ [t] } (linesText 'r' id rs ++ rest)) (manyEnd (parse_r block) (block.length + 1)) =
      goOn { s with times := done ++ [{ t with repeats := t.repeats ++ rs }] } rest := by
  have := manyEnd_lines (f := parse_r block) (st := fun l => { s with times := done ++ [{ t with repeats := t.repeats ++ l }] })
    skips letter_r hL hb hn (block.length + 1) [] rs (lines_fuel hs) ?_ hr hs
  · simp only [List.append_nil, List.nil_append] at this
    exact this
  · intro d x m
    have h := reads_r (block := block) (s := { s with times := done ++ [{ t with repeats := t.repeats ++ d }] }) (hr x m) rfl
    simpa [List.append_assoc] using h

/-- The loop over `t` lines behind the `r` lines. -/
def timeStep (block : List Char) (n : Nat) : Part := fun sdp ptr => do
  let r ← parse_t block sdp ptr
  if r.1 = -1 then return .stop (-1) r.2.1
  Step.next (ended r.2.1 r.2.2) fun sdp ptr => if r.1 = ERR_DISCARD then some (.go sdp ptr) else timeLoop block n sdp ptr

theorem timeLoop_lines (hL : 'r' ∉ L ∧ 't' ∉ L) (hb : Begins True L rest) (hn : NUL ∈ rest) (n : Nat) (done : List TimeDescr)
    (t : TimeDescr) (rs : List Str) (l : List TimeDescr) (hf : l.length < n) (hr : ∀ x ∈ rs, Text x) (hl : ∀ x ∈ l, WfTime x)
    (hs : Sub block (linesText 'r' id rs ++ (l.flatMap timeLines ++ rest))) :
    Step.next (goOn { s with times := done ++ [t] } (linesText 'r' id rs ++ (l.flatMap timeLines ++ rest))) (timeLoop block n) =
      goOn { s with times := done ++ { t with repeats := t.repeats ++ rs } :: l } rest := by
  induction n generalizing done t rs l with
  | zero => omega
  | succ n ih =>
    have e : timeLoop block (n + 1) = fun sdp ptr =>
        Step.next (manyEnd (parse_r block) (block.length + 1) sdp ptr) (timeStep block n) := by
      funext sdp ptr; rfl
    have hrt : 'r' ∉ 't' :: L := by simp [hL.1]
    rw [e, ← next_assoc, repeats_lines done t rs hr hrt (begins_times hl hb) (by simp [hn]) hs]
    cases l with
    | nil =>
      have hs2 : Sub block rest := by simpa using sub_drop hs
      simp only [List.flatMap_nil, List.nil_append]
      by_cases he : rest = [NUL]
      · simp [goOn, he, next_stop]
      have h1 : parse_t block { s with times := done ++ [{ t with repeats := t.repeats ++ rs }] } rest =
          some (0, { s with times := done ++ [{ t with repeats := t.repeats ++ rs }] }, rest) :=
        (skips : Skips block (parse_t block) 't') L _ rest hs2 (begins_not_end hb he) hL.2
      rw [goOn, if_neg he, next_go]
      simp [timeStep, h1, ended_goOn hb, goOn, he, next_go]
    | cons t2 l =>
      have ht2 := hl t2 (List.mem_cons_self ..)
      have hl2 : ∀ x ∈ l, WfTime x := fun x m => hl x (List.mem_cons_of_mem _ m)
      have e2 : (t2 :: l).flatMap timeLines ++ rest = lineText 't' (timeText t2) ++ (linesText 'r' id t2.repeats ++ (l.flatMap timeLines ++ rest)) := by
        simp [timeLines]
      have hs2 := sub_drop hs
      rw [e2] at hs2 ⊢
      have h1 := reads_t (s := { s with times := done ++ [{ t with repeats := t.repeats ++ rs }] }) ht2.1 _ hs2 (by simp [hn])
      rw [goOn_line]
      have h2 := ih (done ++ [{ t with repeats := t.repeats ++ rs }]) { t2 with repeats := [] } t2.repeats l (by simpa using hf) ht2.2 hl2 (sub_drop hs2)
      simp only [timeStep, h1, Option.bind_eq_bind, Option.bind_some,
        ended_goOn (begins_lines letter_r (val := id) (l := t2.repeats) ht2.2 (begins_times hl2 hb))]
      refine Eq.trans ?_ (h2.trans ?_)
      · rfl
      · simp only [List.append_assoc, List.cons_append, List.nil_append]

theorem place_media (ms : List Media) (x : Media) (f : Session → Session) (g : Media → Media) :
    place { s with medias := ms ++ [x] } f g = { s with medias := ms ++ [g x] } := by
  simp [place]

theorem begins_medias {e : Prop} {l : List Media} (hl : ∀ m ∈ l, WfMedia m) (hb : Begins e L rest) :
    Begins e ('m' :: L) (l.flatMap mediaLinesText ++ rest) := by
  cases l with
  | nil => exact begins_cons hb
  | cons t l =>
    have := begins_line (e := e) (L := L) letter_m (text_media (hl t (List.mem_cons_self ..)).line)
      (mediaRest t ++ (l.flatMap mediaLinesText ++ rest))
    simpa [mediaLinesText] using this

theorem mediaLines_next (p : List Char) : Step.next (goOn s p) (mediaLines block) =
    Step.next (Step.next (Step.next (Step.next (Step.next (goOn s p) (optionalEnd (parse_i block)))
      (manyEnd (parse_c block) (block.length + 1))) (manyEnd (parse_b block) (block.length + 1)))
      (optionalEnd (parse_k block))) (manyEnd (parse_a block) (block.length + 1)) := by
  unfold goOn
  split <;> rfl

/-- A media with other lines behind its `m` line. -/
def mediaWith (m : Media) (info : Option Str) (cs : List Connection) (bs : List Bandwidth) (key : Option Key) (as : List Attribute) : Media :=
  ⟨m.media, m.port, m.number, m.proto, m.payloads, info, cs, bs, as, key⟩

theorem mediaLines_lines (ms : List Media) (m : Media) (hm : WfMedia m) (hb : Begins True ['m'] rest) (hn : NUL ∈ rest)
    (hs : Sub block (mediaRest m ++ rest)) :
    Step.next (goOn { s with medias := ms ++ [mediaHead m] } (mediaRest m ++ rest)) (mediaLines block) =
      goOn { s with medias := ms ++ [m] } rest := by
  simp only [mediaRest, List.append_assoc] at hs ⊢
  have ba := begins_lines (val := attributeText) letter_a (fun a h => text_pair (hm.attributes a h)) hb
  have bk := begins_lines (val := keyText) (l := m.key.toList) letter_k (fun k h => text_pair (hm.key k (by simpa using h))) ba
  have bb := begins_lines (val := bandwidthText) letter_b (fun b h => text_bandwidth (hm.bandwidths b h)) bk
  have bc := begins_lines (val := connectionText) letter_c (fun c h => text_connection (hm.connections c h)) bb
  have s1 := sub_drop hs
  have s2 := sub_drop s1
  have s3 := sub_drop s2
  have s4 := sub_drop s3
  rw [mediaLines_next, show mediaHead m = mediaWith m none [] [] none [] from rfl]
  rw [optionalEnd_lines (f := parse_i block) (st := fun o => { s with medias := ms ++ [mediaWith m o [] [] none []] })
    skips rfl ?_ (fun _ => by decide) hs bc (by simp [hn])]
  rotate_left
  · intro x hx
    have := reads_i (block := block) (s := { s with medias := ms ++ [mediaWith m none [] [] none []] }) (hm.info x hx)
    rw [place_media] at this
    exact this
  have h2 := manyEnd_lines (f := parse_c block) (st := fun l => { s with medias := ms ++ [mediaWith m m.info l [] none []] })
    skips letter_c (by decide) bb (by simp [hn]) (block.length + 1) [] m.connections (lines_fuel s1) ?_
    (fun c h => text_connection (hm.connections c h)) s1
  rotate_left
  · intro d x hx
    have := reads_c (block := block) (s := { s with medias := ms ++ [mediaWith m m.info d [] none []] })
      (hm.connections x hx)
    rw [place_media] at this
    exact this
  refine (congrArg (fun x => Step.next (Step.next (Step.next x (manyEnd (parse_b block) (block.length + 1))) (optionalEnd (parse_k block)))
    (manyEnd (parse_a block) (block.length + 1))) h2).trans ?_
  have h3 := manyEnd_lines (f := parse_b block)
    (st := fun l => { s with medias := ms ++ [mediaWith m m.info m.connections l none []] })
    skips letter_b (by decide) bk (by simp [hn]) (block.length + 1) [] m.bandwidths (lines_fuel s2) ?_
    (fun b h => text_bandwidth (hm.bandwidths b h)) s2
  rotate_left
  · intro d x hx
    have := reads_b (block := block)
      (s := { s with medias := ms ++ [mediaWith m m.info m.connections d none []] })
      (hm.bandwidths x hx)
    rw [place_media] at this
    exact this
  refine (congrArg (fun x => Step.next (Step.next x (optionalEnd (parse_k block))) (manyEnd (parse_a block) (block.length + 1))) h3).trans ?_
  have h4 := optionalEnd_lines (f := parse_k block) (s := { s with medias := ms ++ [mediaWith m m.info m.connections m.bandwidths none []] })
    (st := fun o => { s with medias := ms ++ [mediaWith m m.info m.connections m.bandwidths o []] })
    skips rfl ?_ (fun _ => by decide) s3 ba (by simp [hn])
  rotate_left
  · intro x hx
    have := reads_k (block := block) (s := { s with medias := ms ++ [mediaWith m m.info m.connections m.bandwidths none []] }) (hm.key x hx)
    rw [place_media] at this
    exact this
  refine (congrArg (fun x => Step.next x (manyEnd (parse_a block) (block.length + 1))) h4).trans ?_
  have h5 := manyEnd_lines (f := parse_a block)
    (st := fun l => { s with medias := ms ++ [mediaWith m m.info m.connections m.bandwidths m.key l] })
    skips letter_a (by decide) hb hn (block.length + 1) [] m.attributes (lines_fuel s4) ?_
    (fun a h => text_pair (hm.attributes a h)) s4
  rotate_left
  · intro d x hx
    have := reads_a (block := block) (s := { s with medias := ms ++ [mediaWith m m.info m.connections m.bandwidths m.key d] }) (hm.attributes x hx)
    rw [place_media] at this
    exact this
  exact h5

theorem mediaLoop_lines (n : Nat) (done l : List Media) (hf : l.length < n) (hl : ∀ m ∈ l, WfMedia m)
    (hs : Sub block (l.flatMap mediaLinesText ++ [NUL])) :
    Step.next (goOn { s with medias := done } (l.flatMap mediaLinesText ++ [NUL])) (mediaLoop block n) =
      some (.stop 0 { s with medias := done ++ l }) := by
  induction n generalizing done l with
  | zero => omega
  | succ n ih =>
    cases l with
    | nil => simp [goOn, next_stop]
    | cons m l =>
      have hm := hl m (List.mem_cons_self ..)
      have hl2 : ∀ x ∈ l, WfMedia x := fun x h => hl x (List.mem_cons_of_mem _ h)
      have e : (m :: l).flatMap mediaLinesText ++ [NUL] = lineText 'm' (mediaText m) ++ (mediaRest m ++ (l.flatMap mediaLinesText ++ [NUL])) := by
        simp [mediaLinesText]
      rw [e] at hs ⊢
      have hb : Begins True ['m'] (l.flatMap mediaLinesText ++ [NUL]) := begins_medias hl2 (.inl ⟨trivial, rfl⟩)
      have h1 := reads_m (s := { s with medias := done }) hm.line _ hs (by simp)
      have h2 := mediaLines_lines (s := s) done m hm hb (by simp) (sub_drop hs)
      have h3 := ih (done ++ [m]) l (by simpa using hf) hl2 (sub_drop (sub_drop hs))
      have hb2 : Begins True ['i', 'c', 'b', 'k', 'a', 'm'] (mediaRest m ++ (l.flatMap mediaLinesText ++ [NUL])) := by
        have ba := begins_lines (val := attributeText) letter_a (fun a h => text_pair (hm.attributes a h)) hb
        have bk := begins_lines (val := keyText) (l := m.key.toList) letter_k (fun k h => text_pair (hm.key k (by simpa using h))) ba
        have bb := begins_lines (val := bandwidthText) letter_b (fun b h => text_bandwidth (hm.bandwidths b h)) bk
        have bc := begins_lines (val := connectionText) letter_c (fun c h => text_connection (hm.connections c h)) bb
        have bi := begins_lines (val := id) (l := m.info.toList) letter_i (fun x h => hm.info x (by simpa using h)) bc
        simpa [mediaRest] using bi
      rw [goOn_line, mediaLoop]
      simp only [h1, Option.bind_eq_bind, Option.bind_some, ended_goOn hb2]
      refine Eq.trans ?_ (h3.trans ?_)
      · rw [if_neg (by decide), h2]; rfl
      · simp only [List.append_assoc, List.cons_append, List.nil_append]

/-! ## The whole text -/

theorem mandatory_line {val : Str} {q : Session} (h : Reads block f c val s q) (hs : Sub block (lineText c val ++ rest)) (hn : NUL ∈ rest) :
    mandatory f s (lineText c val ++ rest) = some (.go q rest) := by
  simp [mandatory, h rest hs hn]

theorem times_length (l : List TimeDescr) : l.length ≤ (l.flatMap timeLines).length := by
  induction l with
  | nil => simp
  | cons a l ih => simp only [List.flatMap_cons, List.length_append, List.length_cons, timeLines, lineText] at ih ⊢; omega

theorem medias_length (l : List Media) : l.length ≤ (l.flatMap mediaLinesText).length := by
  induction l with
  | nil => simp
  | cons a l ih => simp only [List.flatMap_cons, List.length_append, List.length_cons, mediaLinesText, lineText] at ih ⊢; omega

theorem parse_text {s : Session} (hw : WfSession s) : sdp_message_parse {} (sessionText s ++ [NUL]) = some (0, s) := by
  obtain ⟨hf, hv, ho, ht⟩ := hw
  obtain ⟨ve, ev⟩ := Option.ne_none_iff_exists'.1 hv
  generalize hblock : sessionText s ++ [NUL] = block
  -- what stands behind each part
  obtain ⟨t1, tl, et⟩ : ∃ t l, s.times = t :: l := by
    cases h : s.times with
    | nil => exact absurd h ht
    | cons t l => exact ⟨t, l, rfl⟩
  have ht1 : WfTime t1 := hf.times t1 (by simp [et])
  have htl : ∀ t ∈ tl, WfTime t := fun t h => hf.times t (by simp [et, h])
  let M := s.medias.flatMap mediaLinesText ++ [NUL]
  let A := linesText 'a' attributeText s.attributes ++ M
  let K := linesText 'k' keyText s.key.toList ++ A
  let Z := linesText 'z' id s.zone.toList ++ K
  let T2 := tl.flatMap timeLines ++ Z
  let R := linesText 'r' id t1.repeats ++ T2
  let T := lineText 't' (timeText t1) ++ R
  let B := linesText 'b' bandwidthText s.bandwidths ++ T
  let C := linesText 'c' connectionText s.connection.toList ++ B
  let P := linesText 'p' id s.phones ++ C
  let E := linesText 'e' id s.emails ++ P
  let U := linesText 'u' id s.uri.toList ++ E
  let I := linesText 'i' id s.info.toList ++ U
  let S := linesText 's' id s.name.toList ++ I
  let O := lineText 'o' (originText s) ++ S
  have hV : block = lineText 'v' ve ++ O := by
    rw [← hblock]
    simp only [sessionText, ev, et, O, S, I, U, E, P, C, B, T, R, T2, Z, K, A, M, timeLines, List.append_assoc,
      List.flatMap_cons, Option.getD_some]
  have sV : Sub block (lineText 'v' ve ++ O) := ⟨[], hV⟩
  have sO : Sub block O := sub_drop sV
  have sS : Sub block S := sub_drop sO
  have sI : Sub block I := sub_drop sS
  have sU : Sub block U := sub_drop sI
  have sE : Sub block E := sub_drop sU
  have sP : Sub block P := sub_drop sE
  have sC : Sub block C := sub_drop sP
  have sB : Sub block B := sub_drop sC
  have sT : Sub block T := sub_drop sB
  have sR : Sub block R := sub_drop sT
  have sT2 : Sub block T2 := sub_drop sR
  have sZ : Sub block Z := sub_drop sT2
  have sK : Sub block K := sub_drop sZ
  have sA : Sub block A := sub_drop sK
  have sM : Sub block M := sub_drop sA
  have nM : NUL ∈ M := by simp [M]
  have nA : NUL ∈ A := List.mem_append_right _ nM
  have nK : NUL ∈ K := List.mem_append_right _ nA
  have nZ : NUL ∈ Z := List.mem_append_right _ nK
  have nT2 : NUL ∈ T2 := List.mem_append_right _ nZ
  have nR : NUL ∈ R := List.mem_append_right _ nT2
  have nT : NUL ∈ T := List.mem_append_right _ nR
  have nB : NUL ∈ B := List.mem_append_right _ nT
  have nC : NUL ∈ C := List.mem_append_right _ nB
  have nP : NUL ∈ P := List.mem_append_right _ nC
  have nE : NUL ∈ E := List.mem_append_right _ nP
  have nU : NUL ∈ U := List.mem_append_right _ nE
  have nI : NUL ∈ I := List.mem_append_right _ nU
  have nS : NUL ∈ S := List.mem_append_right _ nI
  have nO : NUL ∈ O := List.mem_append_right _ nS
  have bM : Begins True ['m'] M := begins_medias hf.medias (.inl ⟨trivial, rfl⟩)
  have bA : Begins True ['a', 'm'] A := begins_lines letter_a (fun a h => text_pair (hf.attributes a h)) bM
  have bK : Begins True ['k', 'a', 'm'] K := begins_lines letter_k (fun k h => text_pair (hf.key k (by simpa using h))) bA
  have bZ : Begins True ['z', 'k', 'a', 'm'] Z := begins_lines letter_z (fun x h => hf.zone x (by simpa using h)) bK
  have bT2 : Begins True ['t', 'z', 'k', 'a', 'm'] T2 := begins_times htl bZ
  have bR : Begins True ['r', 't', 'z', 'k', 'a', 'm'] R := begins_lines letter_r ht1.2 bT2
  have bT : Begins False ['t'] T := begins_line letter_t (text_time ht1.1) R
  have bB : Begins False ['b', 't'] B := begins_lines letter_b (fun a h => text_bandwidth (hf.bandwidths a h)) bT
  have bC : Begins False ['c', 'b', 't'] C := begins_lines letter_c (fun k h => text_connection (hf.connection k (by simpa using h))) bB
  have bP : Begins False ['p', 'c', 'b', 't'] P := begins_lines letter_p hf.phones bC
  have bE : Begins False ['e', 'p', 'c', 'b', 't'] E := begins_lines letter_e hf.emails bP
  have bU : Begins False ['u', 'e', 'p', 'c', 'b', 't'] U := begins_lines letter_u (fun x h => hf.uri x (by simpa using h)) bE
  have bI : Begins False ['i', 'u', 'e', 'p', 'c', 'b', 't'] I := begins_lines letter_i (fun x h => hf.info x (by simpa using h)) bU
  have bO : Begins False ['o'] O := begins_line letter_o (text_origin hf ho) S
  -- the parts
  have p1 : mandatory (parse_v block) {} block = some (.go { version := s.version } O) := by
    have := mandatory_line (reads_v (s := {}) (hf.version _ ev)) sV nO
    rw [ev, ← this, ← hV]
  have p2 : optional (parse_s block) { version := s.version } O = some (.go { version := s.version } O) := by
    have h : parse_s block { version := s.version } O = some (0, { version := s.version }, O) :=
      (skips : Skips block (parse_s block) 's') _ _ _ sO bO (by decide)
    simp [optional, h]
  have p3 := mandatory_line (reads_o (q := { version := s.version }) hf ho) sO nS
  have p4 := optional_lines (a := s.name) (val := id) (f := parse_s block) (st := fun o =>
    ⟨s.version, s.username, s.sess_id, s.sess_version, s.nettype, s.addrtype, s.addr, o, none, none, [], [], none, [], [], none, none, [], []⟩)
    skips rfl (fun x e => reads_s (hf.name x e)) (by decide) sS bI nI
  have p5 := optional_lines (a := s.info) (val := id) (f := parse_i block) (st := fun o =>
    ⟨s.version, s.username, s.sess_id, s.sess_version, s.nettype, s.addrtype, s.addr, s.name, o, none, [], [], none, [], [], none, none, [], []⟩)
    skips rfl (fun x e => reads_i (hf.info x e)) (by decide) sI bU nU
  have p6 := optional_lines (a := s.uri) (val := id) (f := parse_u block) (st := fun o =>
    ⟨s.version, s.username, s.sess_id, s.sess_version, s.nettype, s.addrtype, s.addr, s.name, s.info, o, [], [], none, [], [], none, none, [], []⟩)
    skips rfl (fun x e => reads_u (hf.uri x e)) (by decide) sU bE nE
  have p7 := many_lines (val := id) (f := parse_e block) (st := fun o =>
    ⟨s.version, s.username, s.sess_id, s.sess_version, s.nettype, s.addrtype, s.addr, s.name, s.info, s.uri, o, [], none, [], [], none, none, [], []⟩)
    skips (by decide) bP nP (block.length + 1) [] s.emails (lines_fuel sE) (fun d x m => reads_e (hf.emails x m)) sE
  have p8 := many_lines (val := id) (f := parse_p block) (st := fun o =>
    ⟨s.version, s.username, s.sess_id, s.sess_version, s.nettype, s.addrtype, s.addr, s.name, s.info, s.uri, s.emails, o, none, [], [], none, none, [], []⟩)
    skips (by decide) bC nC (block.length + 1) [] s.phones (lines_fuel sP) (fun d x m => reads_p (hf.phones x m)) sP
  have p9 := optional_lines (a := s.connection) (val := connectionText) (f := parse_c block) (st := fun o =>
    ⟨s.version, s.username, s.sess_id, s.sess_version, s.nettype, s.addrtype, s.addr, s.name, s.info, s.uri, s.emails, s.phones, o, [], [], none, none, [], []⟩)
    skips rfl (fun x e => reads_c (hf.connection x e)) (by decide) sC bB nB
  have p10 := many_lines (val := bandwidthText) (f := parse_b block) (st := fun o =>
    ⟨s.version, s.username, s.sess_id, s.sess_version, s.nettype, s.addrtype, s.addr, s.name, s.info, s.uri, s.emails, s.phones, s.connection, o, [], none, none, [], []⟩)
    skips (by decide) bT nT (block.length + 1) [] s.bandwidths (lines_fuel sB) (fun d x m => reads_b (hf.bandwidths x m)) sB
  let W : List TimeDescr → Session := fun o =>
    ⟨s.version, s.username, s.sess_id, s.sess_version, s.nettype, s.addrtype, s.addr, s.name, s.info, s.uri, s.emails, s.phones, s.connection, s.bandwidths, o, none, none, [], []⟩
  have p11 : mandatory (parse_t block) (W []) T = some (.go (W [{ t1 with repeats := [] }]) R) :=
    mandatory_line (reads_t (s := W []) ht1.1) sT nR
  have p12 : ended (W [{ t1 with repeats := [] }]) R = goOn (W [{ t1 with repeats := [] }]) R := ended_goOn bR _
  have p13 : Step.next (goOn (W [{ t1 with repeats := [] }]) R) (manyEnd (parse_r block) (block.length + 1)) = goOn (W [t1]) T2 :=
    repeats_lines (s := W []) [] { t1 with repeats := [] } t1.repeats ht1.2 (by decide) bT2 nT2 sR
  have p14 : Step.next (Step.next (goOn (W [t1]) T2) (optionalEnd (parse_t block))) (timeLoop block (block.length + 1)) = goOn (W s.times) Z := by
    cases tl with
    | nil =>
      have e1 : Step.next (goOn (W [t1]) Z) (optionalEnd (parse_t block)) = goOn (W [t1]) Z :=
        optionalEnd_lines (a := none) (val := timeText) (f := parse_t block) (st := fun _ => W [t1]) skips rfl (by simp) (fun _ => by decide) sZ bZ nZ
      have e2 : Step.next (goOn (W [t1]) Z) (timeLoop block (block.length + 1)) = goOn (W [{ t1 with repeats := t1.repeats ++ [] }]) Z :=
        timeLoop_lines (s := W []) (by decide) bZ nZ (block.length + 1) [] t1 [] [] (by simp) (by simp) (by simp) sZ
      rw [show T2 = Z from rfl, e1, e2, et, List.append_nil]
    | cons t2 l =>
      have ht2 := htl t2 (List.mem_cons_self ..)
      have hl2 : ∀ x ∈ l, WfTime x := fun x m => htl x (List.mem_cons_of_mem _ m)
      have e2 : T2 = linesText 't' timeText (some t2).toList ++ (linesText 'r' id t2.repeats ++ (l.flatMap timeLines ++ Z)) := by
        simp [T2, timeLines, linesText]
      have s2 := sT2
      rw [e2] at s2 ⊢
      have bl := begins_lines (val := id) letter_r ht2.2 (begins_times hl2 bZ)
      have e3 := optionalEnd_lines (a := some t2) (f := parse_t block)
        (st := fun o => W (t1 :: (o.map fun t => ({ t with repeats := [] } : TimeDescr)).toList)) skips rfl
        (fun x e => by cases e; exact reads_t (s := W [t1]) ht2.1) (by simp) s2 bl (by simp [nZ])
      have hlen : l.length < block.length + 1 := by
        have h1 := sub_length (sub_drop (sub_drop s2))
        have h2 : l.length ≤ (l.flatMap timeLines).length := times_length l
        rw [List.length_append] at h1
        omega
      have e4 := timeLoop_lines (s := W []) (by decide) bZ nZ (block.length + 1) [t1] { t2 with repeats := [] } t2.repeats l
        hlen ht2.2 hl2 (sub_drop s2)
      rw [et]
      exact (congrArg (fun x => Step.next x (timeLoop block (block.length + 1))) e3).trans e4
  have p15 := optionalEnd_lines (a := s.zone) (val := id) (f := parse_z block) (st := fun o =>
    ⟨s.version, s.username, s.sess_id, s.sess_version, s.nettype, s.addrtype, s.addr, s.name, s.info, s.uri, s.emails, s.phones, s.connection, s.bandwidths, s.times, o, none, [], []⟩)
    skips rfl (fun x e => reads_z (hf.zone x e)) (fun _ => by decide) sZ bK nK
  have p16 := optionalEnd_lines (a := s.key) (val := keyText) (f := parse_k block) (st := fun o =>
    ⟨s.version, s.username, s.sess_id, s.sess_version, s.nettype, s.addrtype, s.addr, s.name, s.info, s.uri, s.emails, s.phones, s.connection, s.bandwidths, s.times, s.zone, o, [], []⟩)
    skips rfl (fun x e => reads_k (hf.key x e)) (fun _ => by decide) sK bA nA
  have p17 := manyEnd_lines (val := attributeText) (f := parse_a block) (st := fun o =>
    ⟨s.version, s.username, s.sess_id, s.sess_version, s.nettype, s.addrtype, s.addr, s.name, s.info, s.uri, s.emails, s.phones, s.connection, s.bandwidths, s.times, s.zone, s.key, o, []⟩)
    skips letter_a (by decide) bM nM (block.length + 1) [] s.attributes (lines_fuel sA)
    (fun d x m => reads_a (hf.attributes x m)) (fun a h => text_pair (hf.attributes a h)) sA
  have hlen : s.medias.length < block.length + 1 := by
    have h1 := sub_length sM
    have h2 : s.medias.length ≤ (s.medias.flatMap mediaLinesText).length := medias_length s.medias
    simp only [M, List.length_append] at h1
    omega
  have p18 := mediaLoop_lines (s := s) (block.length + 1) [] s.medias hlen hf.medias sM
  unfold sdp_message_parse
  have q2 : Step.next (mandatory (parse_v block) {} block) (optional (parse_s block)) = some (.go { version := s.version } O) := by
    rw [p1, next_go, p2]
  have q3 := (congrArg (Step.next · (mandatory (parse_o block))) q2).trans p3
  have q4 := (congrArg (Step.next · (optional (parse_s block))) q3).trans p4
  have q5 := (congrArg (Step.next · (optional (parse_i block))) q4).trans p5
  have q6 := (congrArg (Step.next · (optional (parse_u block))) q5).trans p6
  have q7 := (congrArg (Step.next · (many (parse_e block) (block.length + 1))) q6).trans p7
  have q8 := (congrArg (Step.next · (many (parse_p block) (block.length + 1))) q7).trans p8
  have q9 := (congrArg (Step.next · (optional (parse_c block))) q8).trans p9
  have q10 := (congrArg (Step.next · (many (parse_b block) (block.length + 1))) q9).trans p10
  have q11 := (congrArg (Step.next · (mandatory (parse_t block))) q10).trans p11
  have q12 := (congrArg (Step.next · ended) q11).trans p12
  have q13 := (congrArg (Step.next · (manyEnd (parse_r block) (block.length + 1))) q12).trans p13
  have q14 := (congrArg (fun x => Step.next (Step.next x (optionalEnd (parse_t block))) (timeLoop block (block.length + 1))) q13).trans p14
  have q15 := (congrArg (Step.next · (optionalEnd (parse_z block))) q14).trans p15
  have q16 := (congrArg (Step.next · (optionalEnd (parse_k block))) q15).trans p16
  have q17 := (congrArg (Step.next · (manyEnd (parse_a block) (block.length + 1))) q16).trans p17
  have q18 := (congrArg (Step.next · (mediaLoop block (block.length + 1))) q17).trans p18
  simp only at q18 ⊢
  rw [q18]
  rfl

end Osip.Sdp
