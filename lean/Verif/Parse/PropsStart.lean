import Verif.Parse.Start
import Verif.Parse.PropsUriBounds

/-!
# C48, C74: start lines
-/

set_option autoImplicit false

namespace Osip

/-! ## Specification -/

/-- The conversion `%d` on a number of three digits without leading zero, followed by something else than a digit. -/
def SscanfDOk (sscanfD : Str → Option Int) : Prop :=
  ∀ (n : Nat) (t : Str), 100 ≤ n → n ≤ 999 → (∀ c, t.head? = some c → c < '0' ∨ '9' < c) →
    sscanfD (Nat.toDigits 10 n ++ t) = some (n : Int)

/-- A version: `SIP/` in any case and digits with dots, at least 3. -/
inductive WfVersion : Str → Prop
  | mk {a b c : Char} {d : Str} : a ∈ ['S', 's'] → b ∈ ['I', 'i'] → c ∈ ['P', 'p'] → 3 ≤ d.length →
      (∀ x ∈ d, ('0' ≤ x ∧ x ≤ '9') ∨ x = '.') → WfVersion (a :: b :: c :: '/' :: d)

/-- The end of a line and the text behind it. -/
inductive EndOfLine : Str → Str → Prop
  | crlf (rest : Str) : EndOfLine ('\r' :: '\n' :: rest) rest
  | lf (rest : Str) : EndOfLine ('\n' :: rest) rest
  | cr (rest : Str) : rest.head? ≠ some '\n' → EndOfLine ('\r' :: rest) rest

/-! ## Steps -/

theorem nextLine_run {e rest : Str} (h : EndOfLine e rest) (r : List Char) :
    nextLine (e ++ NUL :: r) = some (rest ++ NUL :: r) := by
  cases h with
  | crlf => simp [nextLine, deref, CR, LF]; decide
  | lf => cases rest <;> simp [nextLine, deref, CR, LF] <;> rfl
  | cr _ h =>
    cases rest with
    | nil => simp [nextLine, deref, CR, LF]
    | cons c t =>
      have : c ≠ '\n' := by simpa using h
      simp [nextLine, deref, CR, LF, this]

theorem eol_head {e rest : Str} (h : EndOfLine e rest) : ∃ c t, e = c :: t ∧ (c = CR ∨ c = LF) := by
  cases h with
  | crlf => exact ⟨_, _, rfl, .inl rfl⟩
  | lf => exact ⟨_, _, rfl, .inr rfl⟩
  | cr => exact ⟨_, _, rfl, .inl rfl⟩

theorem skipVersion_run {d : Str} (h : ∀ x ∈ d, ('0' ≤ x ∧ x ≤ '9') ∨ x = '.') {c : Char} (hc : c = CR ∨ c = LF) (t : List Char) :
    skipVersion (d ++ c :: t) = some (some (c :: t)) := by
  induction d with
  | nil => simp [skipVersion, hc]
  | cons x d ih =>
    have hx := h x (by simp)
    have h1 : ¬ (x = CR ∨ x = LF) := by
      rintro (rfl | rfl)
      · rcases hx with hx | hx
        · exact absurd hx.1 (by decide)
        · exact absurd hx (by decide)
      · rcases hx with hx | hx
        · exact absurd hx.1 (by decide)
        · exact absurd hx (by decide)
    rw [List.cons_append, skipVersion, if_neg h1, if_pos hx]
    exact ih fun y hy => h y (by simp [hy])

theorem skipReason_run {d : Str} (hd : d.Ok) (h : ∀ x ∈ d, x ≠ '\r' ∧ x ≠ '\n') {c : Char} (hc : c = CR ∨ c = LF) (t : List Char) :
    skipReason (d ++ c :: t) = some (some (c :: t)) := by
  induction d with
  | nil => simp [skipReason, hc]
  | cons x d ih =>
    have hx := h x (by simp)
    have h1 : ¬ (x = CR ∨ x = LF) := fun h => h.elim hx.1 hx.2
    rw [List.cons_append, skipReason, if_neg h1, if_neg (ok_cons.1 hd).1]
    exact ih (ok_cons.1 hd).2 fun y hy => h y (by simp [hy])

theorem nulWithin_run {n : Nat} {s : Str} (hs : s.Ok) (h : n ≤ s.length) (r : List Char) : nulWithin n (s ++ r) = some false := by
  induction n generalizing s with
  | zero => rfl
  | succ n ih =>
    cases s with
    | nil => simp at h
    | cons c s =>
      rw [List.cons_append, nulWithin, if_neg (ok_cons.1 hs).1]
      exact ih (ok_cons.1 hs).2 (by simpa using h)

theorem trim_noblank {t : Str} (h : ∀ c ∈ t, c ≠ ' ' ∧ c ≠ '\t' ∧ c ≠ '\r' ∧ c ≠ '\n') : trim t = t := by
  cases ht : t with
  | nil => rfl
  | cons a m =>
    have hb : ∀ c ∈ t, isBlank c = false := by
      intro c hc
      have := h c hc
      rw [isBlank_eq]
      simpa using this
    have := trim_mid (w₁ := []) (w₂ := []) (m := a :: m) (a := a) (m₁ := m) (z := (a :: m).getLast (by simp))
      (m₂ := (a :: m).dropLast) (by simp) (by simp) (hb a (by rw [ht]; simp)) (hb _ (by rw [ht]; exact List.getLast_mem _)) rfl
      (List.dropLast_concat_getLast _).symm
    simpa using this

theorem trim_sub (s : Str) {x : Char} (h : x ∈ trim s) : x ∈ s := by
  rw [trim_eq, List.mem_reverse] at h
  have := (List.dropWhile_suffix isBlank).subset h
  rw [List.mem_reverse] at this
  exact (List.dropWhile_suffix isBlank).subset this

theorem version_run {v : Str} (hv : WfVersion v) (dest : StartLine) {e rest : Str} (he : EndOfLine e rest) (heo : e.Ok) (r : List Char) :
    startReqVersion dest (' ' :: (v ++ e) ++ NUL :: r) = some (OSIP_SUCCESS, { dest with sip_version := some v }, rest ++ NUL :: r) := by
  obtain ⟨ha, hb, hc, hl, hd⟩ := hv
  rename_i a b c d
  obtain ⟨x, t, rfl, hx⟩ := eol_head he
  have hdo : Str.Ok d := by
    intro h
    rcases hd _ h with h | h
    · exact absurd h.1 (by decide)
    · exact absurd h (by decide)
  have hvo : Str.Ok (a :: b :: c :: '/' :: d) := by
    simp only [List.mem_cons, List.not_mem_nil, or_false] at ha hb hc
    simp only [ok_cons]
    refine ⟨?_, ?_, ?_, by decide, hdo⟩
    · rcases ha with rfl | rfl <;> decide
    · rcases hb with rfl | rfl <;> decide
    · rcases hc with rfl | rfl <;> decide
  have e0 : (' ' :: ((a :: b :: c :: '/' :: d) ++ x :: t) ++ NUL :: r).drop 1 = (a :: b :: c :: '/' :: d) ++ (x :: t ++ NUL :: r) := by simp
  unfold startReqVersion
  simp only [e0]
  rw [nulWithin_run hvo (by simp; omega)]
  simp only [Option.bind_eq_bind, Option.bind_some, Bool.false_eq_true, if_false]
  simp only [deref, List.cons_append, List.head?_cons, List.drop_succ_cons, List.drop_zero, Option.bind_some]
  rw [if_neg (by
    simp only [List.mem_cons, List.not_mem_nil, or_false] at ha hb hc
    rcases ha with rfl | rfl <;> rcases hb with rfl | rfl <;> rcases hc with rfl | rfl <;> decide)]
  rw [skipVersion_run hd hx]
  simp only [Option.bind_some]
  rw [if_neg (by simp [pdiff]; omega)]
  have k := strncpy_at hvo heo r (n := ((a :: b :: c :: '/' :: d).length : Int)) rfl
  simp only [List.cons_append] at k
  simp only [List.append_assoc, List.cons_append] at k ⊢
  rw [show pdiff (x :: (t ++ NUL :: r)) (' ' :: a :: b :: c :: '/' :: (d ++ x :: (t ++ NUL :: r))) - 1 =
    ((a :: b :: c :: '/' :: d).length : Int) by simp [pdiff]; omega]
  rw [k]
  simp only [Option.bind_some]
  have k2 := nextLine_run he r
  simp only [List.cons_append] at k2
  rw [k2]
  rfl

theorem hasPrefix_false {l m : Str} (hl : ¬ l <+: m) (hm : ¬ m <+: l) (r : List Char) : hasPrefix l (m ++ r) = some false := by
  induction l generalizing m with
  | nil => simp at hl
  | cons c l ih =>
    cases m with
    | nil => simp at hm
    | cons d m =>
      rw [List.cons_append, hasPrefix]
      by_cases h : c = d
      · subst h
        simp only [List.cons_prefix_cons, true_and] at hl hm
        simp [ih hl hm]
      · simp [h]

theorem hasPrefix_true (l : Str) (r : List Char) : hasPrefix l (l ++ r) = some true := by
  induction l with
  | nil => simp [hasPrefix]
  | cons c l ih => simp [hasPrefix, ih]

/-! ## C48 -/

/-- A request line is read. -/
theorem request_read {m t v : Str} {u' : Uri} (hm : m ≠ []) (hmo : m.Ok) (hms : ' ' ∉ m) (hmp : ¬ "SIP/".toList <+: m)
    (sscanf : Str → Option Nat) (sscanfD : Str → Option Int) (hto : t.Ok) (ht0 : t ≠ [])
    (hts : ∀ c ∈ t, c ≠ ' ' ∧ c ≠ '\t' ∧ c ≠ '\r' ∧ c ≠ '\n')
    (hu : osip_uri_parse sscanf (Str.buf t) = some (OSIP_SUCCESS, u')) (hv : WfVersion v) :
    ∀ e rest, EndOfLine e rest → e.Ok → ∀ r,
      startline_parse sscanf sscanfD (m ++ ' ' :: (t ++ ' ' :: v) ++ e ++ NUL :: r) =
        some (OSIP_SUCCESS, { sip_method := some m, req_uri := some u', sip_version := some v }, rest ++ NUL :: r) := by
  intro e rest he heo r
  have hvo : Str.Ok v := by
    obtain ⟨ha, hb, hc, hl, hd⟩ := hv
    simp only [List.mem_cons, List.not_mem_nil, or_false] at ha hb hc
    simp only [ok_cons]
    refine ⟨?_, ?_, ?_, by decide, ?_⟩
    · rcases ha with rfl | rfl <;> decide
    · rcases hb with rfl | rfl <;> decide
    · rcases hc with rfl | rfl <;> decide
    · intro h
      rcases hd _ h with h | h
      · exact absurd h.1 (by decide)
      · exact absurd h (by decide)
  have e0 : m ++ ' ' :: (t ++ ' ' :: v) ++ e ++ NUL :: r = m ++ ' ' :: (t ++ ' ' :: (v ++ e) ++ NUL :: r) := by simp
  have htail : Str.Ok (t ++ ' ' :: (v ++ e)) := ok_append hto (ok_cons.2 ⟨by decide, ok_append hvo heo⟩)
  rw [e0]
  unfold startline_parse
  have hpre : hasPrefix "SIP/".toList (m ++ ' ' :: (t ++ ' ' :: (v ++ e) ++ NUL :: r)) = some false := by
    have : m ++ ' ' :: (t ++ ' ' :: (v ++ e) ++ NUL :: r) = (m ++ [' ']) ++ (t ++ ' ' :: (v ++ e) ++ NUL :: r) := by simp
    rw [this]
    refine hasPrefix_false ?_ ?_ _
    · intro h
      apply hmp
      rw [List.prefix_concat_iff] at h
      rcases h with h | h
      · have : ' ' ∈ "SIP/".toList := by rw [h]; simp
        exact absurd this (by decide)
      · exact h
    · intro h
      have : ' ' ∈ "SIP/".toList := h.subset (by simp)
      exact absurd this (by decide)
  rw [hpre]
  simp only [Option.bind_eq_bind, Option.bind_some, Bool.false_eq_true, if_false]
  unfold startline_parsereq
  rw [cstrchr_found hmo hms]
  simp only [Option.bind_eq_bind, Option.bind_some]
  obtain ⟨c0, t0, rfl⟩ := List.exists_cons_of_ne_nil ht0
  have e1 : (' ' :: (c0 :: t0 ++ ' ' :: (v ++ e) ++ NUL :: r)).drop 1 = (c0 :: t0 ++ ' ' :: (v ++ e)) ++ NUL :: r := by simp
  have e2 : (' ' :: (c0 :: t0 ++ ' ' :: (v ++ e) ++ NUL :: r)).drop 2 = t0 ++ ' ' :: (v ++ e ++ NUL :: r) := by simp
  rw [e1, e2, nulWithin_run htail (by simp; omega)]
  simp only [Option.bind_some, Bool.false_eq_true, if_false]
  have hl : 0 < m.length := List.length_pos_iff.2 hm
  have e3 : pdiff (' ' :: (c0 :: t0 ++ ' ' :: (v ++ e) ++ NUL :: r)) (m ++ ' ' :: (c0 :: t0 ++ ' ' :: (v ++ e) ++ NUL :: r)) = m.length := by
    simp [pdiff]
  rw [e3, if_neg (by omega)]
  have e4 := strncpy_at hmo (b := ' ' :: (c0 :: t0 ++ ' ' :: (v ++ e))) (ok_cons.2 ⟨by decide, htail⟩) r (n := m.length) rfl
  rw [show ' ' :: (c0 :: t0 ++ ' ' :: (v ++ e)) ++ NUL :: r = ' ' :: (c0 :: t0 ++ ' ' :: (v ++ e) ++ NUL :: r) by simp] at e4
  rw [e4]
  simp only [Option.bind_some]
  rw [cstrchr_found (ok_cons.1 hto).2 (fun h => (hts ' ' (by simp [h])).1 rfl)]
  simp only [Option.bind_some]
  have e5 : pdiff (' ' :: (v ++ e ++ NUL :: r)) (' ' :: (c0 :: t0 ++ ' ' :: (v ++ e) ++ NUL :: r)) = (c0 :: t0).length + 1 := by
    simp [pdiff]; omega
  rw [e5, if_neg (by simp; omega)]
  have e6 := clrncpy_at hto (b := ' ' :: (v ++ e)) (ok_cons.2 ⟨by decide, ok_append hvo heo⟩) r (n := (c0 :: t0).length) rfl
  rw [show c0 :: t0 ++ ' ' :: (v ++ e) ++ NUL :: r = c0 :: t0 ++ (' ' :: (v ++ e) ++ NUL :: r) by simp,
    show ((c0 :: t0).length : Int) + 1 - 1 = (c0 :: t0).length by omega, e6, trim_noblank hts]
  simp only [Option.bind_some, hu]
  rw [if_neg (by decide)]
  have := version_run hv { sip_method := some m, req_uri := some u' } he heo r
  simpa using this

/-- **C48**, request lines: a request whose method is not empty, has no space and does not start with `SIP/`, with a
URI whose text has no white space and is accepted by the URI parser, is written as method, text of the URI and version with
spaces between; reading this line gives back the method, the parsed URI and the version, and the rest
of the message. -/
theorem c48_request_round_trip {m t v : Str} {u u' : Uri} (hm : m ≠ []) (hmo : m.Ok) (hms : ' ' ∉ m) (hmp : ¬ "SIP/".toList <+: m)
    (fresh : Nat → Buf) (sscanf : Str → Option Nat) (sscanfD : Str → Option Int)
    (ht : osip_uri_to_str fresh (some u) = some (OSIP_SUCCESS, some t)) (hto : t.Ok) (ht0 : t ≠ [])
    (hts : ∀ c ∈ t, c ≠ ' ' ∧ c ≠ '\t' ∧ c ≠ '\r' ∧ c ≠ '\n')
    (hu : osip_uri_parse sscanf (Str.buf t) = some (OSIP_SUCCESS, u')) (hv : WfVersion v) :
    ∃ s, startline_to_str fresh { sip_method := some m, req_uri := some u, sip_version := some v } = some (OSIP_SUCCESS, some s) ∧
      s = m ++ ' ' :: (t ++ ' ' :: v) ∧
      ∀ e rest, EndOfLine e rest → e.Ok → ∀ r,
        startline_parse sscanf sscanfD (s ++ e ++ NUL :: r) =
          some (OSIP_SUCCESS, { sip_method := some m, req_uri := some u', sip_version := some v }, rest ++ NUL :: r) := by
  refine ⟨_, ?_, rfl, ?_⟩
  · simp only [startline_to_str, startline_to_strreq, startVersion, ht, Option.getD_some, ne_eq, reduceCtorEq, not_false_eq_true, if_true,
      Option.bind_eq_bind, Option.bind_some]
    rw [if_neg (by decide), put_fits (by simp; omega)]
    simp only [Option.bind_some]
    rw [put_fits (by simp; omega)]
    simp only [Option.bind_some]
    rw [put_fits (by simp; omega)]
    simp
  · exact request_read hm hmo hms hmp sscanf sscanfD hto ht0 hts hu hv

theorem digits3 (n : Nat) (h1 : 100 ≤ n) (h2 : n ≤ 699) :
    (Nat.toDigits 10 n).length = 3 ∧ ∀ c ∈ Nat.toDigits 10 n, '0' ≤ c ∧ c ≤ '9' := by
  have : ∀ n : Fin 700, 100 ≤ n.val → (Nat.toDigits 10 n).length = 3 ∧ ∀ c ∈ Nat.toDigits 10 n.val, '0' ≤ c ∧ c ≤ '9' := by
    decide +kernel
  exact this ⟨n, by omega⟩ h1

/-- A status line is read. -/
theorem response_read {v reason : Str} {code : Nat} (hv : "SIP/".toList <+: v) (hvo : v.Ok) (hvs : ' ' ∉ v)
    (h1 : 100 ≤ code) (h2 : code ≤ 699) (hro : reason.Ok) (hr : ∀ c ∈ reason, c ≠ '\r' ∧ c ≠ '\n')
    (sscanf : Str → Option Nat) {sscanfD : Str → Option Int} (hd : SscanfDOk sscanfD) :
    ∀ e rest, EndOfLine e rest → e.Ok → ∀ r,
      startline_parse sscanf sscanfD (v ++ ' ' :: (Nat.toDigits 10 code ++ ' ' :: reason) ++ e ++ NUL :: r) =
        some (OSIP_SUCCESS, { sip_version := some v, status_code := code, reason_phrase := some reason }, rest ++ NUL :: r) := by
  obtain ⟨g1, g2⟩ := digits3 code h1 h2
  intro e rest he heo r
  generalize hD : Nat.toDigits 10 code = D at g1 g2
  have hDo : Str.Ok D := fun h => absurd (g2 _ h).1 (by decide)
  have hDs : ' ' ∉ D := fun h => absurd (g2 _ h).1 (by decide)
  have hro' : Str.Ok (' ' :: reason) := ok_cons.2 ⟨by decide, hro⟩
  have hr' : ∀ c ∈ ' ' :: reason, c ≠ '\r' ∧ c ≠ '\n' := by
    intro c hc
    rcases List.mem_cons.1 hc with rfl | hc
    · decide
    · exact hr c hc
  have e0 : v ++ ' ' :: (D ++ ' ' :: reason) ++ e ++ NUL :: r = v ++ ' ' :: (D ++ ' ' :: (reason ++ e ++ NUL :: r)) := by simp
  have hb : Str.Ok (D ++ ' ' :: (reason ++ e)) := ok_append hDo (ok_cons.2 ⟨by decide, ok_append hro heo⟩)
  rw [e0]
  unfold startline_parse
  have hpre : hasPrefix "SIP/".toList (v ++ ' ' :: (D ++ ' ' :: (reason ++ e ++ NUL :: r))) = some true := by
    obtain ⟨w, rfl⟩ := hv
    rw [List.append_assoc, hasPrefix_true]
  rw [hpre]
  simp only [Option.bind_eq_bind, Option.bind_some, if_true]
  unfold startline_parseresp
  rw [cstrchr_found hvo hvs]
  simp only [Option.bind_eq_bind, Option.bind_some]
  have e1 := strncpy_at hvo (b := ' ' :: (D ++ ' ' :: (reason ++ e))) (ok_cons.2 ⟨by decide, hb⟩) r (n := v.length) rfl
  simp only [List.append_assoc, List.cons_append] at e1 ⊢
  rw [show pdiff (' ' :: (D ++ ' ' :: (reason ++ (e ++ NUL :: r)))) (v ++ ' ' :: (D ++ ' ' :: (reason ++ (e ++ NUL :: r)))) = v.length by
    simp [pdiff], e1]
  simp only [Option.bind_some, List.drop_succ_cons, List.drop_zero]
  rw [cstrchr_found hDo hDs]
  simp only [Option.bind_some]
  have e2 := cstr_at hb r
  simp only [List.append_assoc, List.cons_append] at e2
  rw [e2]
  simp only [Option.bind_some]
  have e3 := hd code (' ' :: (reason ++ e)) h1 (by omega) (by intro c hc; cases hc; left; decide)
  rw [hD] at e3
  rw [e3]
  simp only
  rw [if_neg (by omega)]
  obtain ⟨x, y, rfl, hx⟩ := eol_head he
  have e4 := skipReason_run hro' hr' hx (y ++ NUL :: r)
  simp only [List.cons_append] at e4 ⊢
  rw [e4]
  simp only [Option.bind_some, List.drop_succ_cons, List.drop_zero]
  have e5 := strncpy_at hro heo r (n := reason.length) rfl
  simp only [List.cons_append] at e5
  rw [show pdiff (x :: (y ++ NUL :: r)) (' ' :: (reason ++ x :: (y ++ NUL :: r))) - 1 = reason.length by simp [pdiff]; omega, e5]
  simp only [Option.bind_some]
  have e6 := nextLine_run he r
  simp only [List.cons_append] at e6
  rw [e6]
  rfl

/-- **C48**, status lines: a response with a code from 100 to 699 is written as version, code and reason phrase with spaces
between; reading this line gives back all three, and the rest of the message. -/
theorem c48_response_round_trip {v reason : Str} {code : Nat} (hv : "SIP/".toList <+: v) (hvo : v.Ok) (hvs : ' ' ∉ v)
    (h1 : 100 ≤ code) (h2 : code ≤ 699) (hro : reason.Ok) (hr : ∀ c ∈ reason, c ≠ '\r' ∧ c ≠ '\n')
    (fresh : Nat → Buf) (sscanf : Str → Option Nat) {sscanfD : Str → Option Int} (hd : SscanfDOk sscanfD) :
    ∃ s, startline_to_str fresh { sip_version := some v, status_code := code, reason_phrase := some reason } =
        some (OSIP_SUCCESS, some s) ∧
      s = v ++ ' ' :: (Nat.toDigits 10 code ++ ' ' :: reason) ∧
      ∀ e rest, EndOfLine e rest → e.Ok → ∀ r,
        startline_parse sscanf sscanfD (s ++ e ++ NUL :: r) =
          some (OSIP_SUCCESS, { sip_version := some v, status_code := code, reason_phrase := some reason }, rest ++ NUL :: r) := by
  obtain ⟨g1, g2⟩ := digits3 code h1 h2
  refine ⟨_, ?_, rfl, ?_⟩
  · simp only [startline_to_str, startline_to_strresp, startVersion, Option.getD_some, ne_eq, not_true_eq_false, if_false,
      Option.bind_eq_bind]
    rw [if_pos (by omega), if_neg (by omega), put_fits (by simp; omega)]
    simp only [Option.bind_some, Int.toNat_natCast, g1, if_true]
    rw [put_fits (by simp [g1]; omega)]
    simp only [Option.bind_some]
    rw [put_fits (by simp [g1]; omega)]
    simp
  · exact response_read hv hvo hvs h1 h2 hro hr sscanf hd

/-- **C48** with the URIs of C52. -/
theorem c48_request_sip {m t v : Str} {u : Uri} (hm : m ≠ []) (hmo : m.Ok) (hms : ' ' ∉ m) (hmp : ¬ "SIP/".toList <+: m)
    (hu : WfUri u) {fresh : Nat → Buf} (hf : ∀ n, (fresh n).length = n) {sscanf : Str → Option Nat} (hsc : SscanfOk sscanf)
    (sscanfD : Str → Option Int) (ht : osip_uri_to_str fresh (some u) = some (OSIP_SUCCESS, some t))
    (hts : ∀ c ∈ t, c ≠ ' ' ∧ c ≠ '\t' ∧ c ≠ '\r' ∧ c ≠ '\n') (hv : WfVersion v) :
    ∃ s, startline_to_str fresh { sip_method := some m, req_uri := some u, sip_version := some v } = some (OSIP_SUCCESS, some s) ∧
      ∀ e rest, EndOfLine e rest → e.Ok → ∀ r,
        startline_parse sscanf sscanfD (s ++ e ++ NUL :: r) =
          some (OSIP_SUCCESS, { sip_method := some m, req_uri := some u, sip_version := some v }, rest ++ NUL :: r) := by
  obtain ⟨sc, s1, _⟩ := hu.scheme
  obtain ⟨host, g1, _⟩ := hu.host
  obtain ⟨e1, e2, e3⟩ := uri_text_round_trip hu s1 g1 hf hsc
  rw [ht] at e1
  cases e1
  have h0 : uriText sc host u ≠ [] := by
    intro h
    have := e3 []
    rw [h] at this
    have k : osip_uri_parse sscanf ([] ++ [NUL]) = some (OSIP_BADPARAMETER, {}) := by
      simp [osip_uri_parse, deref]
    rw [k] at this
    cases this
  obtain ⟨s, k1, _, k2⟩ := c48_request_round_trip hm hmo hms hmp fresh sscanf sscanfD ht e2 h0 hts (e3 []) hv
  exact ⟨s, k1, k2⟩

/-! ## C74 -/

/-- What `startline_parse` accepts as a request line. -/
def RequestLine (sscanf : Str → Option Nat) (s : Str) (d : StartLine) (rest : Str) : Prop :=
  ∃ m w v e u, s = m ++ ' ' :: (w ++ ' ' :: (v ++ e)) ∧ EndOfLine e rest ∧ m ≠ [] ∧ ' ' ∉ m ∧ w ≠ [] ∧ ' ' ∉ w.tail ∧
    (∃ a b c n, v = a :: b :: c :: '/' :: n ∧ a ∈ ['S', 's'] ∧ b ∈ ['I', 'i'] ∧ c ∈ ['P', 'p'] ∧
      ∀ x ∈ n, ('0' ≤ x ∧ x ≤ '9') ∨ x = '.') ∧
    osip_uri_parse sscanf (Str.buf (trim w)) = some (OSIP_SUCCESS, u) ∧
    d = { sip_method := some m, req_uri := some u, sip_version := some v }

/-- What it accepts as a status line. -/
def StatusLine (sscanfD : Str → Option Int) (s : Str) (d : StartLine) (rest : Str) : Prop :=
  ∃ v c reason e k, s = v ++ ' ' :: (c ++ ' ' :: (reason ++ e)) ∧ EndOfLine e rest ∧ "SIP/".toList <+: v ∧ ' ' ∉ v ∧ ' ' ∉ c ∧
    (∀ x ∈ reason, x ≠ '\r' ∧ x ≠ '\n') ∧ sscanfD (c ++ ' ' :: (reason ++ e)) = some k ∧ k ≠ 0 ∧
    d = { sip_version := some v, status_code := k, reason_phrase := some reason }

theorem eol_of {c : Char} (hc : c = CR ∨ c = LF) (t : Str) : ∃ rest, EndOfLine (c :: t) rest := by
  rcases hc with rfl | rfl
  · by_cases h : t.head? = some '\n'
    · cases t with
      | nil => simp at h
      | cons d t =>
        have : d = '\n' := by simpa using h
        subst this
        exact ⟨t, .crlf t⟩
    · exact ⟨t, .cr t h⟩
  · exact ⟨t, .lf t⟩

theorem nulWithin_str (n : Nat) {s : Str} (hs : s.Ok) (r : List Char) :
    nulWithin n (s ++ NUL :: r) = some true ∨ (nulWithin n (s ++ NUL :: r) = some false ∧ n ≤ s.length) := by
  induction n generalizing s with
  | zero => exact .inr ⟨rfl, by omega⟩
  | succ n ih =>
    cases s with
    | nil => exact .inl (by simp [nulWithin])
    | cons c s =>
      rw [List.cons_append, nulWithin, if_neg (ok_cons.1 hs).1]
      rcases ih (ok_cons.1 hs).2 with h | ⟨h, hl⟩
      · exact .inl h
      · exact .inr ⟨h, by simpa using hl⟩

theorem skipVersion_str (s : Str) (r : List Char) :
    skipVersion (s ++ NUL :: r) = some none ∨
      ∃ d c t, s = d ++ c :: t ∧ (c = CR ∨ c = LF) ∧ (∀ x ∈ d, ('0' ≤ x ∧ x ≤ '9') ∨ x = '.') ∧
        skipVersion (s ++ NUL :: r) = some (some ((c :: t) ++ NUL :: r)) := by
  induction s with
  | nil => left; simp [skipVersion, show ¬ (NUL = CR ∨ NUL = LF) by decide, show ¬ (('0' ≤ NUL ∧ NUL ≤ '9') ∨ NUL = '.') by decide]
  | cons c s ih =>
    rw [List.cons_append, skipVersion]
    by_cases h : c = CR ∨ c = LF
    · rw [if_pos h]; exact .inr ⟨[], c, s, rfl, h, by simp, rfl⟩
    · rw [if_neg h]
      by_cases h2 : ('0' ≤ c ∧ c ≤ '9') ∨ c = '.'
      · rw [if_pos h2]
        rcases ih with e | ⟨d, x, t, rfl, hx, hd, e⟩
        · exact .inl e
        · exact .inr ⟨c :: d, x, t, rfl, hx, by simpa using ⟨h2, hd⟩, e⟩
      · rw [if_neg h2]; exact .inl rfl

theorem skipReason_str {s : Str} (hs : s.Ok) (r : List Char) :
    skipReason (s ++ NUL :: r) = some none ∨
      ∃ d c t, s = d ++ c :: t ∧ (c = CR ∨ c = LF) ∧ (∀ x ∈ d, x ≠ '\r' ∧ x ≠ '\n') ∧
        skipReason (s ++ NUL :: r) = some (some ((c :: t) ++ NUL :: r)) := by
  induction s with
  | nil => left; simp [skipReason]; decide
  | cons c s ih =>
    rw [List.cons_append, skipReason]
    by_cases h : c = CR ∨ c = LF
    · rw [if_pos h]; exact .inr ⟨[], c, s, rfl, h, by simp, rfl⟩
    · rw [if_neg h, if_neg (ok_cons.1 hs).1]
      rcases ih (ok_cons.1 hs).2 with e | ⟨d, x, t, rfl, hx, hd, e⟩
      · exact .inl e
      · refine .inr ⟨c :: d, x, t, rfl, hx, ?_, e⟩
        intro y hy
        rcases List.mem_cons.1 hy with rfl | hy
        · exact ⟨fun k => h (.inl k), fun k => h (.inr k)⟩
        · exact hd y hy

theorem version_str (dest : StartLine) {V : Str} (hV : V.Ok) (r : List Char) :
    (startReqVersion dest ((' ' :: V) ++ NUL :: r) = some (OSIP_SYNTAXERROR, {}, [])) ∨
      ∃ v e rest, V = v ++ e ∧ EndOfLine e rest ∧
        (∃ a b c n, v = a :: b :: c :: '/' :: n ∧ a ∈ ['S', 's'] ∧ b ∈ ['I', 'i'] ∧ c ∈ ['P', 'p'] ∧
          ∀ x ∈ n, ('0' ≤ x ∧ x ≤ '9') ∨ x = '.') ∧
        startReqVersion dest ((' ' :: V) ++ NUL :: r) = some (OSIP_SUCCESS, { dest with sip_version := some v }, rest ++ NUL :: r) := by
  unfold startReqVersion
  simp only [drop_nul, Option.bind_eq_bind]
  rcases nulWithin_str 7 hV r with h | ⟨h, hl⟩
  · left; rw [h]; rfl
  · rw [h]
    simp only [Option.bind_some, Bool.false_eq_true, if_false]
    match V, hl with
    | a :: b :: c :: d :: W, _ =>
      simp only [deref, List.cons_append, List.head?_cons, List.drop_succ_cons, List.drop_zero, Option.bind_some]
      split
      · left; rfl
      · next hp =>
        rcases skipVersion_str W r with e | ⟨n, x, t, rfl, hx, hn, e⟩
        · left; rw [e]; rfl
        · rw [e]
          right
          obtain ⟨rest, he⟩ := eol_of hx t
          refine ⟨a :: b :: c :: d :: n, x :: t, rest, by simp, he, ?_, ?_⟩
          · refine ⟨a, b, c, n, ?_, ?_, ?_, ?_, hn⟩
            · have : d = '/' := by
                refine Decidable.byContradiction fun k => hp ?_
                exact .inr (.inr (.inr k))
              rw [this]
            · refine Decidable.byContradiction fun k => hp ?_
              left; simpa using k
            · refine Decidable.byContradiction fun k => hp ?_
              right; left; simpa using k
            · refine Decidable.byContradiction fun k => hp ?_
              right; right; left; simpa using k
          · simp only [Option.bind_some]
            rw [if_neg (by simp [pdiff]; omega)]
            have k := strncpy_at (a := a :: b :: c :: d :: n) (b := x :: t) (by
                have := (ok_append_iff (a := a :: b :: c :: d :: n) (b := x :: t)).1 (by simpa using hV)
                exact this.1) (by
                have := (ok_append_iff (a := a :: b :: c :: d :: n) (b := x :: t)).1 (by simpa using hV)
                exact this.2) r (n := ((a :: b :: c :: d :: n).length : Int)) rfl
            simp only [List.append_assoc, List.cons_append] at k ⊢
            rw [show pdiff (x :: (t ++ NUL :: r)) (' ' :: a :: b :: c :: d :: (n ++ x :: (t ++ NUL :: r))) - 1 =
              ((a :: b :: c :: d :: n).length : Int) by simp [pdiff]; omega, k]
            simp only [Option.bind_some]
            have k2 := nextLine_run he r
            simp only [List.cons_append] at k2
            rw [k2]
            rfl

theorem parsereq_str (sscanf : Str → Option Nat) {s : Str} (hs : s.Ok) (r : List Char) :
    startline_parsereq sscanf (s ++ NUL :: r) = some (OSIP_SYNTAXERROR, {}, []) ∨
      ∃ d rest, RequestLine sscanf s d rest ∧ startline_parsereq sscanf (s ++ NUL :: r) = some (OSIP_SUCCESS, d, rest ++ NUL :: r) := by
  unfold startline_parsereq
  simp only [Option.bind_eq_bind]
  rcases cstrchr_str (c := ' ') hs (by decide) with ⟨_, e⟩ | ⟨m, q, rfl, hm, hmo, hqo, e⟩
  · left; rw [e]; rfl
  rw [e]
  simp only [Option.bind_some, drop_nul]
  rcases nulWithin_str 2 hqo r with h | ⟨h, hl⟩
  · left; rw [h]; rfl
  rw [h]
  simp only [Option.bind_some, Bool.false_eq_true, if_false]
  match q, hl with
  | c0 :: c1 :: q, _ =>
    by_cases hm0 : m = []
    · left; subst hm0; rw [if_pos (by simp [pdiff])]; rfl
    have hml : 0 < m.length := List.length_pos_iff.2 hm0
    rw [if_neg (by rw [pdiff_nul]; simp; omega), strncpy_total hs r (by rw [pdiff_nul]; simp)]
    simp only [Option.bind_some]
    have e2 : ((' ' :: c0 :: c1 :: q) ++ NUL :: r).drop 2 = (c1 :: q) ++ NUL :: r := rfl
    rw [e2]
    have ho : Str.Ok (c1 :: q) := (ok_cons.1 hqo).2
    rcases cstrchr_str (c := ' ') ho (by decide) with ⟨_, e⟩ | ⟨w, V, e0, hw, hwo, hVo, e⟩
    · left; rw [e]; rfl
    rw [e]
    simp only [Option.bind_some]
    rw [e0] at hqo ⊢
    rw [if_neg (by rw [pdiff_nul]; simp; omega), clrncpy_total hqo r (by rw [pdiff_nul]; simp; omega) (by rw [pdiff_nul]; simp; omega)]
    simp only [Option.bind_some, pdiff_nul]
    rw [show ((((' ' :: c0 :: (w ++ ' ' :: V)).length : Int) - (' ' :: V).length) - 1).toNat = (c0 :: w).length by simp; omega,
      show (((m ++ ' ' :: c0 :: (w ++ ' ' :: V)).length : Int) - (' ' :: c0 :: (w ++ ' ' :: V)).length).toNat = m.length by simp]
    rw [show (c0 :: (w ++ ' ' :: V)).take (c0 :: w).length = c0 :: w by simp,
      show (m ++ ' ' :: c0 :: (w ++ ' ' :: V)).take m.length = m by simp]
    have htr : Str.Ok (trim (c0 :: w)) := by
      have k : Str.Ok (c0 :: w) := ok_cons.2 ⟨(ok_cons.1 hqo).1, hwo⟩
      exact fun h => k (trim_sub _ h)
    obtain ⟨⟨i, u⟩, hres⟩ := c72_uri_in_bounds sscanf htr
    rw [Str.buf, hres]
    simp only [Option.bind_some]
    by_cases hi : i = 0
    · rw [if_neg (by simpa using hi)]
      rcases version_str { sip_method := some m, req_uri := some u } hVo r with k | ⟨v, e', rest, rfl, he, hv, k⟩
      · left; exact k
      · right
        refine ⟨_, rest, ⟨m, c0 :: w, v, e', u, by simp, he, hm0, hm, by simp, by simpa using hw, hv, ?_, rfl⟩, k⟩
        rw [Str.buf, hres, hi]; rfl
    · left; rw [if_pos (by simpa using hi)]; rfl

theorem parseresp_str (sscanfD : Str → Option Int) {s : Str} (hs : s.Ok) (hp : "SIP/".toList <+: s) (r : List Char) :
    (∃ d, startline_parseresp sscanfD (s ++ NUL :: r) = some (OSIP_SYNTAXERROR, d, [])) ∨
      ∃ d rest, StatusLine sscanfD s d rest ∧ startline_parseresp sscanfD (s ++ NUL :: r) = some (OSIP_SUCCESS, d, rest ++ NUL :: r) := by
  unfold startline_parseresp
  simp only [Option.bind_eq_bind]
  rcases cstrchr_str (c := ' ') hs (by decide) with ⟨_, e⟩ | ⟨v, q, rfl, hv, hvo, hqo, e⟩
  · left; rw [e]; exact ⟨_, rfl⟩
  rw [e]
  simp only [Option.bind_some, drop_nul]
  rw [strncpy_total hs r (by rw [pdiff_nul]; simp), pdiff_nul,
    show (((v ++ ' ' :: q).length : Int) - (' ' :: q).length).toNat = v.length by simp,
    show (v ++ ' ' :: q).take v.length = v by simp]
  simp only [Option.bind_some]
  rcases cstrchr_str (c := ' ') hqo (by decide) with ⟨_, e⟩ | ⟨c, w, rfl, hc, hco, hwo, e⟩
  · left; rw [e]; exact ⟨_, rfl⟩
  rw [e, cstr_at hqo]
  simp only [Option.bind_some]
  cases hk : sscanfD (c ++ ' ' :: w) with
  | none => exact .inl ⟨_, rfl⟩
  | some k =>
    simp only
    by_cases h0 : k = 0
    · left; rw [if_pos h0]; exact ⟨_, rfl⟩
    rw [if_neg h0]
    rcases skipReason_str (ok_cons.2 ⟨by decide, hwo⟩ : Str.Ok (' ' :: w)) r with e | ⟨d, x, t, e0, hx, hd, e⟩
    · left; rw [e]; exact ⟨_, rfl⟩
    rw [e]
    simp only [Option.bind_some]
    cases d with
    | nil =>
      simp only [List.nil_append, List.cons.injEq] at e0
      rw [← e0.1] at hx
      exact absurd hx (by decide)
    | cons y d =>
      simp only [List.cons_append, List.cons.injEq] at e0
      obtain ⟨rfl, rfl⟩ := e0
      obtain ⟨rest, he⟩ := eol_of hx t
      rw [drop_nul, strncpy_total hwo r (by rw [pdiff_nul]; simp; omega), pdiff_nul,
        show (((' ' :: (d ++ x :: t)).length : Int) - (x :: t).length - 1).toNat = d.length by simp; omega,
        show (d ++ x :: t).take d.length = d by simp]
      simp only [Option.bind_some]
      rw [nextLine_run he]
      right
      refine ⟨_, rest, ⟨v, c, d, x :: t, k, rfl, he, ?_, hv, hc, fun z hz => hd z (by simp [hz]), hk, h0, rfl⟩, rfl⟩
      obtain ⟨z, hz⟩ := hp
      rcases List.append_eq_append_iff.1 hz with ⟨a, e1, _⟩ | ⟨a, e1, e2⟩
      · exact ⟨a, e1.symm⟩
      · cases a with
        | nil => exact ⟨[], by simpa using e1⟩
        | cons b a =>
          exfalso
          have : b = ' ' := by simp only [List.cons_append, List.cons.injEq] at e2; exact e2.1.symm
          have k : b ∈ "SIP/".toList := by rw [e1]; simp
          rw [this] at k
          exact absurd k (by decide)

theorem hasPrefix_str {l s : Str} (hl : NUL ∉ l) (r : List Char) :
    (l <+: s ∧ hasPrefix l (s ++ NUL :: r) = some true) ∨ (¬ l <+: s ∧ hasPrefix l (s ++ NUL :: r) = some false) := by
  induction l generalizing s with
  | nil => exact .inl ⟨List.nil_prefix, by simp [hasPrefix]⟩
  | cons c l ih =>
    have hc : c ≠ NUL := by rintro rfl; exact hl (by simp)
    cases s with
    | nil => right; exact ⟨by simp, by simp [hasPrefix, hc]⟩
    | cons d s =>
      by_cases h : c = d
      · subst h
        simpa [hasPrefix] using ih (s := s) (by intro h; exact hl (by simp [h]))
      · right; exact ⟨by simp [h], by simp [hasPrefix, h]⟩

/-- **C74**. Reading the start line of every string, with any bytes behind the terminator, stays inside the string; it fails with a
syntax error, or the text is a request line or a status line, the message has its parts, and the headers are the text behind the line. -/
theorem c74_start_line (sscanf : Str → Option Nat) (sscanfD : Str → Option Int) {s : Str} (hs : s.Ok) (r : List Char) :
    (∃ d, startline_parse sscanf sscanfD (s ++ NUL :: r) = some (OSIP_SYNTAXERROR, d, [])) ∨
      ∃ d rest, startline_parse sscanf sscanfD (s ++ NUL :: r) = some (OSIP_SUCCESS, d, rest ++ NUL :: r) ∧
        (RequestLine sscanf s d rest ∨ StatusLine sscanfD s d rest) ∧ (d.sip_method = none ↔ "SIP/".toList <+: s) := by
  unfold startline_parse
  rcases hasPrefix_str (l := "SIP/".toList) (s := s) (by decide) r with ⟨hp, e⟩ | ⟨hp, e⟩
  · rw [e]
    rcases parseresp_str sscanfD hs hp r with ⟨d, k⟩ | ⟨d, rest, h, k⟩
    · exact .inl ⟨d, k⟩
    · refine .inr ⟨d, rest, k, .inr h, ?_⟩
      obtain ⟨_, _, _, _, _, _, _, _, _, _, _, _, _, rfl⟩ := h
      exact ⟨fun _ => hp, fun _ => rfl⟩
  · rw [e]
    rcases parsereq_str sscanf hs r with k | ⟨d, rest, h, k⟩
    · exact .inl ⟨_, k⟩
    · refine .inr ⟨d, rest, k, .inl h, ?_⟩
      obtain ⟨_, _, _, _, _, _, _, _, _, _, _, _, _, rfl⟩ := h
      exact ⟨fun h => (by cases h), fun h => absurd h hp⟩

/-! ## Examples -/

/-- The conversion `%d`, for numbers without sign. -/
def sscanfD1 (s : Str) : Option Int :=
  let d := s.takeWhile (fun c => '0' ≤ c && c ≤ '9')
  if d = [] then none else some (d.foldl (fun n c => 10 * n + (c.toNat - 48 : Int)) 0)

example : startline_parse sscanf2 sscanfD1 (Str.buf "INVITE sip:bob@b.org;lr SIP/2.0\r\nVia: x".toList) =
    some (OSIP_SUCCESS, {
      sip_method := some "INVITE".toList,
      req_uri := some { scheme := some "sip".toList, username := some "bob".toList, host := some "b.org".toList, url_params := [⟨"lr".toList, none⟩] },
      sip_version := some "SIP/2.0".toList }, Str.buf "Via: x".toList) := by decide +kernel

example : startline_parse sscanf2 sscanfD1 (Str.buf "SIP/2.0 180 Ringing now\nVia: x".toList) =
    some (OSIP_SUCCESS, { sip_version := some "SIP/2.0".toList, status_code := 180, reason_phrase := some "Ringing now".toList },
      Str.buf "Via: x".toList) := by decide +kernel

example : startline_to_str (fun n => List.replicate n '#') { status_code := 404, reason_phrase := some "Not Found".toList } =
    some (OSIP_SUCCESS, some "SIP/2.0 404 Not Found".toList) := by decide +kernel

example : startline_to_str (fun n => List.replicate n '#') {
      sip_method := some "ACK".toList, req_uri := some { scheme := some "sip".toList, host := some "b.org".toList } } =
    some (OSIP_SUCCESS, some "ACK sip:b.org SIP/2.0".toList) := by decide +kernel

example : (startline_parse sscanf2 sscanfD1 (Str.buf "INVITE sip:bob@b.org HTTP/1.0\r\n".toList)).map (·.1) = some OSIP_SYNTAXERROR := by
  decide +kernel

/-- The conversion above meets the assumption. -/
theorem sscanfD1_ok : SscanfDOk sscanfD1 := by
  intro n t h1 h2 ht
  have : ∀ n : Fin 1000, 100 ≤ n.val → Nat.toDigits 10 n.val ≠ [] ∧ (∀ c ∈ Nat.toDigits 10 n.val, ('0' ≤ c && c ≤ '9') = true) ∧
      (Nat.toDigits 10 n.val).foldl (fun n c => 10 * n + (c.toNat - 48 : Int)) 0 = (n.val : Int) := by
    decide +kernel
  obtain ⟨g0, g1, g2⟩ := this ⟨n, by omega⟩ h1
  have k : (Nat.toDigits 10 n ++ t).takeWhile (fun c => '0' ≤ c && c ≤ '9') = Nat.toDigits 10 n := by
    rw [List.takeWhile_append_of_pos g1]
    cases t with
    | nil => simp
    | cons c t =>
      rw [List.takeWhile_cons_of_neg, List.append_nil]
      have := ht c rfl
      simp only [Bool.and_eq_true, decide_eq_true_eq]
      rintro ⟨h3, h4⟩
      rcases this with h | h
      · exact absurd h (Char.not_lt.2 h3)
      · exact absurd h (Char.not_lt.2 h4)
  unfold sscanfD1
  simp only [k]
  rw [if_neg g0]
  exact congrArg some g2

end Osip
