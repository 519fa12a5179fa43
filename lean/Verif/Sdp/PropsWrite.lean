import Verif.Sdp.PropsText
import Verif.Parse.PropsUri

/-!
# Session descriptions: writing and copying

C94: for every session the text that is written; what was read is written and read back.
C95: copies.
-/

set_option autoImplicit false

namespace Osip.Sdp

open Osip

/-! ## Appending -/

/-- The text so far and its terminator fit. -/
def Fit (o : Out) : Prop := o.2.length < o.1

theorem append_fits {o : Out} (h : Fit o) (s : Str) : ∃ n, append o s = some (n, o.2 ++ s) ∧ Fit (n, o.2 ++ s) := by
  unfold Fit at h
  unfold append
  dsimp only
  split
  · have h2 : o.2.length + s.length < o.1 + s.length + 500 := by omega
    exact ⟨_, by rw [put_fits h2]; rfl, by simpa [Fit] using h2⟩
  · have h2 : o.2.length + s.length < o.1 := by omega
    exact ⟨_, by rw [put_fits h2]; rfl, by simpa [Fit] using h2⟩

theorem appends_fits {o : Out} (h : Fit o) (l : List Str) :
    ∃ n, appends o l = some (n, o.2 ++ l.flatten) ∧ Fit (n, o.2 ++ l.flatten) := by
  induction l generalizing o with
  | nil => exact ⟨o.1, by simp [appends], by simpa using h⟩
  | cons s l ih =>
    obtain ⟨n, e, hn⟩ := append_fits h s
    obtain ⟨k, e2, hk⟩ := ih hn
    simp only [List.append_assoc] at e2 hk
    exact ⟨k, by simp [appends, e, e2], by simpa using hk⟩

/-- What is written behind `o`: the text if `ok`, and an error is returned otherwise. -/
def Res (x : Option (Option Out)) (o : Out) (ok : Prop) (text : Str) : Prop :=
  (ok ∧ ∃ n, x = some (some (n, o.2 ++ text)) ∧ Fit (n, o.2 ++ text)) ∨ (¬ ok ∧ x = some none)

theorem res_then {x : Option (Option Out)} {o : Out} {ok ok2 : Prop} {t t2 : Str} {g : Out → Option (Option Out)}
    (h : Res x o ok t) (h2 : ∀ o, Fit o → Res (g o) o ok2 t2) : Res (andThen x g) o (ok ∧ ok2) (t ++ t2) := by
  rcases h with ⟨hk, n, rfl, hf⟩ | ⟨hk, rfl⟩
  · rcases h2 _ hf with ⟨hk2, n2, e, hf2⟩ | ⟨hk2, e⟩
    · exact .inl ⟨⟨hk, hk2⟩, n2, by simpa [andThen_some] using e, by simpa using hf2⟩
    · exact .inr ⟨fun h => hk2 h.2, by simp [andThen_some, e]⟩
  · exact .inr ⟨fun h => hk h.1, rfl⟩

theorem res_appends {o : Out} (h : Fit o) (l : List Str) : Res ((appends o l).map some) o True l.flatten := by
  obtain ⟨n, e, hn⟩ := appends_fits h l
  exact .inl ⟨trivial, n, by simp [e], hn⟩

theorem res_cast {x : Option (Option Out)} {o : Out} {ok ok2 : Prop} {t t2 : Str} (h : Res x o ok t) (hk : ok ↔ ok2) (ht : t = t2) :
    Res x o ok2 t2 := by
  subst ht
  rcases h with ⟨h, r⟩ | ⟨h, r⟩
  · exact .inl ⟨hk.1 h, r⟩
  · exact .inr ⟨fun h2 => h (hk.2 h2), r⟩

theorem res_list {α : Type} {f : Out → α → Option (Option Out)} {ok : α → Prop} {text : α → Str}
    (h : ∀ o a, Fit o → Res (f o a) o (ok a) (text a)) (o : Out) (l : List α) (ho : Fit o) :
    Res (appendList f o l) o (∀ a ∈ l, ok a) (l.flatMap text) := by
  induction l generalizing o with
  | nil => exact .inl ⟨by simp, o.1, by simp [appendList], by simpa using ho⟩
  | cons a l ih => exact res_cast (res_then (h o a ho) fun o ho => ih o ho) (by simp) (by simp)

theorem res_opt {α : Type} {f : Out → α → Option (Option Out)} {ok : α → Prop} {text : α → Str}
    (h : ∀ o a, Fit o → Res (f o a) o (ok a) (text a)) (o : Out) (a : Option α) (ho : Fit o) :
    Res (appendOpt f o a) o (∀ x, a = some x → ok x) (a.toList.flatMap text) := by
  cases a with
  | none => exact .inl ⟨by simp, o.1, by simp [appendOpt], by simpa using ho⟩
  | some a => exact res_cast (h o a ho) (by simp) (by simp)

theorem res_line (c : Char) (o : Out) (s : Str) (ho : Fit o) : Res (appendLine c o s) o True (lineText c s) :=
  res_cast (res_appends ho _) Iff.rfl (by simp [lineText])

/-- A call of `append` in front. -/
theorem res_seq {o : Out} {ok : Prop} {t2 : Str} {l : List Str} {g : Out → Option (Option Out)} (ho : Fit o)
    (h : ∀ o, Fit o → Res (g o) o ok t2) : Res ((appends o l).bind g) o ok (l.flatten ++ t2) := by
  obtain ⟨n, e, hn⟩ := appends_fits ho l
  rcases h _ hn with ⟨hk, k, e2, hf⟩ | ⟨hk, e2⟩
  · exact .inl ⟨hk, k, by simpa [e] using e2, by simpa using hf⟩
  · exact .inr ⟨hk, by simp [e, e2]⟩

/-- A part that may be missing in front. -/
theorem res_seq_opt {o : Out} {ok : Prop} {t2 : Str} {a : Option Str} {d : Char} {g : Out → Option (Option Out)} (ho : Fit o)
    (h : ∀ o, Fit o → Res (g o) o ok t2) :
    Res ((a.elim (some o) fun s => appends o [[d], s]).bind g) o ok (a.elim [] (d :: ·) ++ t2) := by
  cases a with
  | none => exact h o ho
  | some s => exact res_cast (res_seq ho h) Iff.rfl (by simp)

theorem res_end {o : Out} (ho : Fit o) : Res ((append o ['\r', '\n']).map some) o True ['\r', '\n'] := by
  obtain ⟨n, e, hn⟩ := append_fits ho ['\r', '\n']
  exact .inl ⟨trivial, n, by simp [e], hn⟩

/-! ## The lines -/

/-- The parts that the line must have. -/
def HasConnection (c : Connection) : Prop := c.nettype ≠ none ∧ c.addrtype ≠ none ∧ c.addr ≠ none
def HasBandwidth (b : Bandwidth) : Prop := b.bwtype ≠ none ∧ b.bandwidth ≠ none
def HasTime (t : TimeDescr) : Prop := t.start ≠ none ∧ t.stop ≠ none

/-- A media with all the parts that its lines must have. -/
structure HasMedia (m : Media) : Prop where
  media : m.media ≠ none
  port : m.port ≠ none
  proto : m.proto ≠ none
  connections : ∀ c ∈ m.connections, HasConnection c
  bandwidths : ∀ b ∈ m.bandwidths, HasBandwidth b
  key : ∀ k, m.key = some k → k.keytype ≠ none
  attributes : ∀ a ∈ m.attributes, a.field ≠ none

/-- A session with all the parts that its lines must have. -/
structure HasSession (s : Session) : Prop where
  version : s.version ≠ none
  origin : Origin s
  connection : ∀ c, s.connection = some c → HasConnection c
  bandwidths : ∀ b ∈ s.bandwidths, HasBandwidth b
  times : ∀ t ∈ s.times, HasTime t
  key : ∀ k, s.key = some k → k.keytype ≠ none
  attributes : ∀ a ∈ s.attributes, a.field ≠ none
  medias : ∀ m ∈ s.medias, HasMedia m

theorem res_connection (o : Out) (c : Connection) (ho : Fit o) :
    Res (sdp_append_connection o c) o (HasConnection c) (lineText 'c' (connectionText c)) := by
  obtain ⟨a, b, d, t, i⟩ := c
  unfold sdp_append_connection HasConnection
  cases a <;> cases b <;> cases d
  case some.some.some a b d =>
    refine res_cast (res_seq ho fun o ho => res_seq_opt ho fun o ho => res_seq_opt ho fun o ho => res_end ho) (by simp) ?_
    simp [lineText, connectionText]
  all_goals exact .inr ⟨by simp, rfl⟩

theorem res_bandwidth (o : Out) (b : Bandwidth) (ho : Fit o) :
    Res (sdp_append_bandwidth o b) o (HasBandwidth b) (lineText 'b' (bandwidthText b)) := by
  obtain ⟨a, b⟩ := b
  unfold sdp_append_bandwidth HasBandwidth
  cases a <;> cases b
  case some.some a b => exact res_cast (res_appends ho _) (by simp) (by simp [lineText, bandwidthText])
  all_goals exact .inr ⟨by simp, rfl⟩

theorem res_time (o : Out) (t : TimeDescr) (ho : Fit o) : Res (sdp_append_time_descr o t) o (HasTime t) (timeLines t) := by
  obtain ⟨a, b, l⟩ := t
  unfold sdp_append_time_descr HasTime
  cases a <;> cases b
  case some.some a b =>
    exact res_cast (res_seq ho fun o ho => res_list (fun o a ho => res_line 'r' o a ho) o l ho) (by simp)
      (by simp [timeLines, lineText, timeText, linesText]; rfl)
  all_goals exact .inr ⟨by simp, rfl⟩

theorem res_pair (c : Char) (o : Out) (a b : Option Str) (ho : Fit o) :
    Res (appendPair c o a b) o (a ≠ none) (lineText c (pairText (a.getD []) b)) := by
  unfold appendPair
  cases a with
  | none => exact .inr ⟨by simp, rfl⟩
  | some a =>
    refine res_cast (res_seq ho fun o ho => res_seq_opt ho fun o ho => res_end ho) (by simp) ?_
    simp [lineText, pairText]

theorem res_media (o : Out) (m : Media) (ho : Fit o) : Res (sdp_append_media o m) o (HasMedia m) (mediaLinesText m) := by
  obtain ⟨a, p, k, t, l, i, cs, bs, as, ky⟩ := m
  unfold sdp_append_media
  cases a <;> cases p <;> cases t
  case some.some.some a p t =>
    refine res_cast (res_seq ho fun o ho => res_seq_opt ho fun o ho => res_seq ho fun o ho =>
      res_then (res_list (fun o a ho => res_appends ho [[' '], a]) o l ho) fun o ho =>
      res_then (res_end ho) fun o ho =>
      res_then (res_opt (fun o a ho => res_line 'i' o a ho) o i ho) fun o ho =>
      res_then (res_list res_connection o cs ho) fun o ho =>
      res_then (res_list res_bandwidth o bs ho) fun o ho =>
      res_then (res_opt (fun o (k : Key) ho => res_pair 'k' o k.keytype k.keydata ho) o ky ho) fun o ho =>
      res_list (fun o (a : Attribute) ho => res_pair 'a' o a.field a.value ho) o as ho) ?_ ?_
    · constructor
      · rintro ⟨-, -, -, hc, hb, hk, ha⟩
        exact ⟨by simp, by simp, by simp, hc, hb, hk, ha⟩
      · rintro ⟨-, -, -, hc, hb, hk, ha⟩
        exact ⟨by simp, trivial, by simp, hc, hb, hk, ha⟩
    · simp [mediaLinesText, mediaRest, lineText, mediaText, payloadsText, linesText, keyText, attributeText]
      rfl
  all_goals exact .inr ⟨fun h => by first | exact h.media rfl | exact h.port rfl | exact h.proto rfl, rfl⟩

/-- **C94**: writing a session never leaves its memory, whatever the session holds. It gives the text of the
session if every line has the parts that it must have, and an error otherwise. -/
theorem c94_written (s : Session) :
    (HasSession s → sdp_message_to_str (some s) = some (0, some (sessionText s))) ∧
      (¬ HasSession s → sdp_message_to_str (some s) = some (-1, none)) := by
  obtain ⟨v, x1, x2, x3, x4, x5, x6, nm, inf, uri, em, ph, co, bs, ts, zo, ke, as, ms⟩ := s
  unfold sdp_message_to_str
  cases v <;> cases x1 <;> cases x2 <;> cases x3 <;> cases x4 <;> cases x5 <;> cases x6
  case some.some.some.some.some.some.some v x1 x2 x3 x4 x5 x6 =>
    have h0 : Fit (BODY_MESSAGE_MAX_SIZE, []) := by simp [Fit, BODY_MESSAGE_MAX_SIZE]
    obtain ⟨n1, e1, h1⟩ := appends_fits h0 [['v', '='], v, ['\r', '\n']]
    obtain ⟨n2, e2, h2⟩ := appends_fits h1 [['o', '='], x1, [' '], x2, [' '], x3, [' '], x4, [' '], x5, [' '], x6, ['\r', '\n']]
    dsimp only
    simp only [e1, e2, Option.bind_eq_bind, Option.bind_some]
    have hr := 
      res_then (res_opt (fun o a ho => res_line 's' o a ho) _ nm h2) fun o ho =>
      res_then (res_opt (fun o a ho => res_line 'i' o a ho) o inf ho) fun o ho =>
      res_then (res_opt (fun o a ho => res_line 'u' o a ho) o uri ho) fun o ho =>
      res_then (res_list (fun o a ho => res_line 'e' o a ho) o em ho) fun o ho =>
      res_then (res_list (fun o a ho => res_line 'p' o a ho) o ph ho) fun o ho =>
      res_then (res_opt res_connection o co ho) fun o ho =>
      res_then (res_list res_bandwidth o bs ho) fun o ho =>
      res_then (res_list res_time o ts ho) fun o ho =>
      res_then (res_opt (fun o a ho => res_line 'z' o a ho) o zo ho) fun o ho =>
      res_then (res_opt (fun o (k : Key) ho => res_pair 'k' o k.keytype k.keydata ho) o ke ho) fun o ho =>
      res_then (res_list (fun o (a : Attribute) ho => res_pair 'a' o a.field a.value ho) o as ho) fun o ho =>
      res_list res_media o ms ho
    rcases hr with ⟨⟨-, -, -, -, -, hc, hb, ht, -, hk, ha, hm⟩, n, e, -⟩ | ⟨hk, e⟩
    · refine ⟨fun _ => ?_, fun h => absurd ⟨by simp, by simp [Origin], hc, hb, ht, hk, ha, hm⟩ h⟩
      refine (congrArg (fun x => Option.bind x fun r : Option Out => some (r.elim (-1, none) fun o => (OSIP_SUCCESS, some o.2))) e).trans ?_
      simp [sessionText, lineText, originText, linesText, OSIP_SUCCESS, keyText, attributeText]
      rfl
    · refine ⟨fun h => absurd ⟨by simp, by simp, by simp, by simp, by simp, h.connection, h.bandwidths, h.times, by simp, h.key,
        h.attributes, h.medias⟩ hk, fun _ => ?_⟩
      exact congrArg (fun x => Option.bind x fun r : Option Out => some (r.elim (-1, none) fun o => (OSIP_SUCCESS, some o.2))) e
  all_goals
    refine ⟨fun h => ?_, fun _ => rfl⟩
    have h1 := h.version
    have h2 := h.origin
    simp [Origin] at h1 h2

/-- There is nothing to write without a session. -/
theorem c94_null : sdp_message_to_str none = some (-1, none) := rfl

/-- A small session. -/
def small : Session :=
  ⟨some ['0'], some ['-'], some ['1'], some ['2'], some ['I'], some ['4'], some ['h'], none, none, none, [], [], none, [], [], none, none, [], []⟩

/-- A session with a text of more than 4000 bytes: the block grows. -/
example (n : Nat) (hn : 4000 < n) : ∃ s : Session, HasSession s ∧ n < (sessionText s).length ∧ s.attributes ≠ [] := by
  refine ⟨{ small with attributes := [⟨some (List.replicate n 'x'), none⟩] }, ?_, ?_, by simp⟩
  · constructor <;> simp [Origin, small]
  · simp [sessionText, linesText, lineText, attributeText, pairText]
    omega

/-- A session with one attribute, and a session whose attribute has no name. -/
example : sdp_message_to_str (some { small with attributes := [⟨some ['x'], some ['y']⟩] }) =
      some (0, some "v=0\r\no=- 1 2 I 4 h\r\na=x:y\r\n".toList) ∧
    sdp_message_to_str (some { small with attributes := [⟨none, some ['y']⟩] }) = some (-1, none) := by
  decide +kernel

/-! ## Reading back and copying -/

theorem has_pair {a b : Option Str} (h : WfPair a b) : a ≠ none := by
  obtain ⟨x, rfl, -⟩ := h; simp

theorem has_connection {c : Connection} (h : WfConnection c) : HasConnection c := by
  obtain ⟨n, t, a, en, et, ea, -⟩ := h
  simp [HasConnection, en, et, ea]

theorem has_bandwidth {b : Bandwidth} (h : WfBandwidth b) : HasBandwidth b := by
  obtain ⟨t, v, rfl, -⟩ := h
  simp [HasBandwidth]

theorem has_time {t : TimeDescr} (h : WfTime t) : HasTime t := by
  obtain ⟨⟨a, b, ea, eb, -⟩, -⟩ := h
  simp [HasTime, ea, eb]

theorem has_media {m : Media} (h : WfMedia m) : HasMedia m := by
  obtain ⟨a, p, t, ea, ep, et, -⟩ := h.line
  exact ⟨by simp [ea], by simp [ep], by simp [et], fun c m => has_connection (h.connections c m),
    fun b m => has_bandwidth (h.bandwidths b m), fun k e => has_pair (h.key k e), fun a m => has_pair (h.attributes a m)⟩

theorem has_session {s : Session} (h : WfSession s) : HasSession s :=
  ⟨h.2.1, h.2.2.1, fun c e => has_connection (h.1.connection c e), fun b m => has_bandwidth (h.1.bandwidths b m),
    fun t m => has_time (h.1.times t m), fun k e => has_pair (h.1.key k e), fun a m => has_pair (h.1.attributes a m),
    fun m h2 => has_media (h.1.medias m h2)⟩

/-- **C95**: what was read with success is written, and reading the text again gives the same session. -/
theorem c95_read_back (s : Str) (hs : s.Ok) (sdp : Session) (h : sdp_message_parse {} (s ++ [NUL]) = some (0, sdp)) :
    ∃ text, sdp_message_to_str (some sdp) = some (0, some text) ∧ sdp_message_parse {} (text ++ [NUL]) = some (0, sdp) := by
  have hw := c93_stored s hs sdp h
  exact ⟨sessionText sdp, (c94_written sdp).1 (has_session hw), parse_text hw⟩

/-- **C95**: every session whose lines are complete is written and read back. -/
theorem c95_session (sdp : Session) (h : WfSession sdp) :
    sdp_message_to_str (some sdp) = some (0, some (sessionText sdp)) ∧
      sdp_message_parse {} (sessionText sdp ++ [NUL]) = some (0, sdp) :=
  ⟨(c94_written sdp).1 (has_session h), parse_text h⟩

/-- A text with blanks at the end of the media line, single line feeds and a line of junk in front: the
session is the one of the text that is written for it. -/
example : (sdp_message_parse {} ("v=0\nzzo=a 1 2 IN IP4 h\nt=0 0\nm=audio 9 RTP 0 \n".toList ++ [NUL])).any (fun r => r.1 == 0 &&
    sdp_message_to_str (some r.2) == some (0, some "v=0\r\no=a 1 2 IN IP4 h\r\nt=0 0\r\nm=audio 9 RTP 0\r\n".toList)) = true := by
  decide +kernel

/-- **C96**: a session gets an equal copy exactly if its lines are complete. -/
theorem c96_copied (sdp : Session) (hn : (sessionText sdp).Ok) :
    sdp_message_clone (some sdp) = some (0, .copy sdp) ↔ WfSession sdp := by
  constructor
  · intro h
    by_cases hh : HasSession sdp
    · unfold sdp_message_clone at h
      rw [(c94_written sdp).1 hh] at h
      cases hp : sdp_message_parse {} (sessionText sdp ++ [NUL]) with
      | none => simp [hp] at h
      | some q =>
        obtain ⟨i, r⟩ := q
        by_cases hi : i = 0
        · subst hi
          simp [hp] at h
          rw [h.2] at hp
          exact c93_stored _ hn _ hp
        · simp [hp, hi, OSIP_SUCCESS] at h
    · unfold sdp_message_clone at h
      rw [(c94_written sdp).2 hh] at h
      simp [OSIP_SUCCESS] at h
  · intro h
    simp [sdp_message_clone, (c94_written sdp).1 (has_session h), parse_text h, OSIP_SUCCESS]

/-- **C96**: what was read with success is copied. -/
theorem c96_read_copied (s : Str) (hs : s.Ok) (sdp : Session) (h : sdp_message_parse {} (s ++ [NUL]) = some (0, sdp)) :
    sdp_message_clone (some sdp) = some (0, .copy sdp) := by
  have hw := c93_stored s hs sdp h
  simp [sdp_message_clone, (c94_written sdp).1 (has_session hw), parse_text hw, OSIP_SUCCESS]

/-- **C96 is violated** for sessions that were built with the accessors: with a number of addresses but no
time to live, the copy has a time to live and no number of addresses. -/
theorem c96_violated :
    let conn (ttl int : Option Str) : Session :=
      { small with times := [⟨some ['0'], some ['0'], []⟩], connection := some ⟨some ['I'], some ['4'], some ['h'], ttl, int⟩ }
    sdp_message_clone (some (conn none (some ['3']))) = some (0, .copy (conn (some ['3']) none)) := by
  decide +kernel

/-- **C96 is violated** in a second way: when a session cannot be copied, the caller is left with a pointer
to memory that was given back. -/
theorem c96_dangling (sdp : Session) (h : ¬ HasSession sdp) : sdp_message_clone (some sdp) = some (-1, .freed) := by
  simp [sdp_message_clone, (c94_written sdp).2 h]

/-- A copy of a session with a media, and of an empty session. -/
example : (sdp_message_parse {} ("v=0\r\no=a 1 2 IN IP4 h\r\nt=0 0\r\nm=audio 9 RTP 0\r\na=x\r\n".toList ++ [NUL])).any (fun r => r.1 == 0 &&
    decide (sdp_message_clone (some r.2) = some (0, .copy r.2))) = true ∧
    sdp_message_clone (some {}) = some (-1, .freed) := by
  decide +kernel

end Osip.Sdp
