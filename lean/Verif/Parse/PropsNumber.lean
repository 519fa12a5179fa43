import Verif.Parse.PropsOrder
import Verif.Dest
import Verif.Dialog.Model

/-!
# C132: Numbers in messages are read exactly, and those that do not fit are refused

Ports, sequence numbers and lengths are read by `osip_atoi`. What a text means as a number is said here by `Numeral`, which builds it
digit by digit, and by `Reads`, which is the shape of the texts `osip_atoi` can be given; neither mentions the model's reader.

The property is false: the result of `strtol` is stored in an `int` before it is compared with `LONG_MIN` and `LONG_MAX`, so these
comparisons never succeed and a number which does not fit is read as another one. `c132_exact_partial` is what holds, `c132_wraps` and
`c132_negative` say exactly what happens to the others, and `c132_violated` shows it for a port, a sequence number and a message body.
-/

set_option autoImplicit false

namespace Osip

/-- The text `s` is a decimal numeral for `n`; zeros in front are allowed. -/
inductive Numeral : Str → Nat → Prop
  | one {d : Nat} : d < 10 → Numeral [Nat.digitChar d] d
  | more {s : Str} {n d : Nat} : Numeral s n → d < 10 → Numeral (s ++ [Nat.digitChar d]) (10 * n + d)

/-- The text `t` is blanks, a sign or none, a numeral, and something that does not continue the numeral; `v` is its value. -/
inductive Reads : Str → Int → Prop
  | plus {w sg s r : Str} {n : Nat} : (∀ c ∈ w, c ∈ [' ', '\t', '\n', '\x0b', '\x0c', '\r']) → sg = [] ∨ sg = ['+'] → Numeral s n →
      (∀ c ∈ r.head?, c ∉ "0123456789".toList) → Reads (w ++ sg ++ s ++ r) n
  | minus {w s r : Str} {n : Nat} : (∀ c ∈ w, c ∈ [' ', '\t', '\n', '\x0b', '\x0c', '\r']) → Numeral s n →
      (∀ c ∈ r.head?, c ∉ "0123456789".toList) → Reads (w ++ ['-'] ++ s ++ r) (-n)

/-! ## Lemmas -/

theorem Numeral.digits {s : Str} {n : Nat} (h : Numeral s n) :
    (∀ c ∈ s, (digitVal c).isSome = true) ∧ s ≠ [] ∧ Osip.digits 0 s = n := by
  induction h with
  | one hd => 
    refine ⟨?_, by simp, ?_⟩
    · intro c hc
      simp only [List.mem_singleton] at hc
      subst hc
      rw [digitVal_digitChar hd]; rfl
    · simp [Osip.digits, digitVal_digitChar hd]
  | more h hd ih =>
    obtain ⟨i1, i2, i3⟩ := ih
    refine ⟨?_, by simp, ?_⟩
    · intro c hc
      rcases List.mem_append.1 hc with hc | hc
      · exact i1 c hc
      · simp only [List.mem_singleton] at hc
        subst hc
        rw [digitVal_digitChar hd]; rfl
    · rw [digits_append _ _ _ i1, i3]
      simp only [Osip.digits, digitVal_digitChar hd]
      omega

theorem not_digit {c : Char} (h : c ∉ "0123456789".toList) : digitVal c = none := by
  rw [digitVal, if_neg]
  rintro ⟨h1, h2⟩
  have h1' : 48 ≤ c.toNat := h1
  have h2' : c.toNat ≤ 57 := h2
  apply h
  have : c = Char.ofNat c.toNat := (Char.ofNat_toNat c).symm
  rw [this]
  generalize c.toNat = k at h1' h2'
  have : k = 48 ∨ k = 49 ∨ k = 50 ∨ k = 51 ∨ k = 52 ∨ k = 53 ∨ k = 54 ∨ k = 55 ∨ k = 56 ∨ k = 57 := by omega
  rcases this with rfl | rfl | rfl | rfl | rfl | rfl | rfl | rfl | rfl | rfl <;> decide

theorem Numeral.digits_rest {s r : Str} {n : Nat} (h : Numeral s n) (hr : ∀ c ∈ r.head?, c ∉ "0123456789".toList) :
    Osip.digits 0 (s ++ r) = n := by
  rw [digits_append _ _ _ h.digits.1, h.digits.2.2]
  cases r with
  | nil => rfl
  | cons c r => simp only [Osip.digits, not_digit (hr c (by simp))]

theorem space_of_mem {c : Char} (h : c ∈ [' ', '\t', '\n', '\x0b', '\x0c', '\r']) : isSpaceC c = true := by
  simp only [List.mem_cons, List.not_mem_nil, or_false] at h
  rcases h with rfl | rfl | rfl | rfl | rfl | rfl <;> rfl

theorem drop_blanks {w s : Str} (hw : ∀ c ∈ w, c ∈ [' ', '\t', '\n', '\x0b', '\x0c', '\r']) (hs : ∀ c ∈ s.head?, isSpaceC c = false) :
    (w ++ s).dropWhile isSpaceC = s := by
  induction w with
  | nil =>
    cases s with
    | nil => rfl
    | cons c s => simp [List.dropWhile_cons, hs c (by simp)]
  | cons c w ih =>
    rw [List.cons_append, List.dropWhile_cons, if_pos (space_of_mem (hw c (by simp)))]
    exact ih fun x hx => hw x (by simp [hx])

/-- `strtol` gives the value, cut off at the ends of the range of `long`. -/
theorem strtol_reads {t : Str} {v : Int} (h : Reads t v) :
    strtol t = if v > 2 ^ 63 - 1 then 2 ^ 63 - 1 else if v < -2 ^ 63 then -2 ^ 63 else v := by
  cases h with
  | @plus w sg s r n hw hsg hn hr =>
    obtain ⟨hd, hne, -⟩ := hn.digits
    obtain ⟨c, s', rfl⟩ := List.exists_cons_of_ne_nil hne
    have hc := digit_not_space (hd c (by simp))
    have hv := hn.digits_rest hr
    rcases hsg with rfl | rfl
    · have e : (w ++ [] ++ (c :: s') ++ r).dropWhile isSpaceC = c :: (s' ++ r) := by
        rw [List.append_nil, List.append_assoc]
        exact drop_blanks hw (by simpa using hc.1)
      rw [strtol, e]
      split
      next heq => simp only [List.cons.injEq] at heq; exact absurd heq.1 hc.2.1
      next heq => simp only [List.cons.injEq] at heq; exact absurd heq.1 hc.2.2
      next => rw [show c :: (s' ++ r) = c :: s' ++ r from rfl, hv]
    · have e : (w ++ ['+'] ++ (c :: s') ++ r).dropWhile isSpaceC = '+' :: (c :: s' ++ r) := by
        rw [List.append_assoc, List.append_assoc]
        exact drop_blanks hw (by simp; decide)
      rw [strtol, e]
      simp only [hv]
  | @minus w s r n hw hn hr =>
    have hv := hn.digits_rest hr
    have e : (w ++ ['-'] ++ s ++ r).dropWhile isSpaceC = '-' :: (s ++ r) := by
      rw [List.append_assoc, List.append_assoc]
      exact drop_blanks hw (by simp; decide)
    rw [strtol, e]
    simp only [hv]

/-! ## The property -/

/-- **C132**, the part that holds: a number that fits an `int` is read exactly. Missing: that a number that does not fit is refused,
which is false (`c132_violated`). -/
theorem c132_exact_partial {t : Str} {v : Int} (h : Reads t v) (h1 : -2 ^ 31 ≤ v) (h2 : v < 2 ^ 31) : osip_atoi (some t) = v := by
  rw [osip_atoi, strtol_reads h, if_neg (by omega), if_neg (by omega), toInt32]
  omega

/-- **C132**. What becomes of any number: one that fits a `long` is read as the only `int` which differs from it by a multiple of
2^32, one above is read as -1 and one below as 0. -/
theorem c132_wraps {t : Str} {v : Int} (h : Reads t v) :
    (-2 ^ 31 ≤ osip_atoi (some t) ∧ osip_atoi (some t) < 2 ^ 31) ∧
    (-2 ^ 63 ≤ v → v < 2 ^ 63 → ∃ k : Int, osip_atoi (some t) = v + k * 2 ^ 32) ∧
    (2 ^ 63 ≤ v → osip_atoi (some t) = -1) ∧ (v < -2 ^ 63 → osip_atoi (some t) = 0) := by
  refine ⟨toInt32_range _, fun h1 h2 => ?_, fun h1 => ?_, fun h1 => ?_⟩
  · refine ⟨-((v + 2 ^ 31) / 2 ^ 32), ?_⟩
    rw [osip_atoi, strtol_reads h, if_neg (by omega), if_neg (by omega), toInt32]
    omega
  · rw [osip_atoi, strtol_reads h, if_pos (by omega)]; decide
  · rw [osip_atoi, strtol_reads h, if_neg (by omega), if_pos (by omega)]; decide

/-- **C132**. A number without a minus sign is seen to be too large, by a negative result, exactly if it does not fit a `long` or its
lower 32 bits have the highest of them set. -/
theorem c132_negative {t : Str} {n : Nat} (h : Reads t n) :
    osip_atoi (some t) < 0 ↔ 2 ^ 63 ≤ n ∨ 2 ^ 31 ≤ n % 2 ^ 32 := by
  by_cases hb : 2 ^ 63 ≤ n
  · rw [(c132_wraps h).2.2.1 (by omega)]
    simp [hb]
  · rw [osip_atoi, strtol_reads h, if_neg (by omega), if_neg (by omega), toInt32]
    omega

/-- **C132**. A number below 2^31 and every number which fits a `long` and differs from it by a multiple of 2^32 are read as the same
number. -/
theorem c132_alias {t t' : Str} {n k : Nat} (h : Reads t n) (h' : Reads t' (n + k * 2 ^ 32 : Nat)) (hk : k < 2 ^ 31) (hn : n < 2 ^ 31) :
    osip_atoi (some t') = osip_atoi (some t) := by
  rw [c132_exact_partial h (by omega) (by omega), osip_atoi, strtol_reads h', if_neg (by omega), if_neg (by omega), toInt32]
  omega

/-- **C132**. A text in which no digit follows the blanks and the sign is read as 0, and no text at all as an error. -/
theorem c132_no_number {w sg r : Str} (hw : ∀ c ∈ w, c ∈ [' ', '\t', '\n', '\x0b', '\x0c', '\r']) (hsg : sg = [] ∨ sg = ['+'] ∨ sg = ['-'])
    (hr : ∀ c ∈ r.head?, c ∉ "0123456789+- \t\n\x0b\x0c\r".toList) :
    osip_atoi (some (w ++ sg ++ r)) = 0 ∧ osip_atoi none = -1 := by
  refine ⟨?_, rfl⟩
  have hd : Osip.digits 0 r = 0 := by
    cases r with
    | nil => rfl
    | cons c r =>
      have hc := hr c (by simp)
      have : digitVal c = none := not_digit fun hm => hc (by
        rw [show "0123456789+- \t\n\x0b\x0c\r".toList = "0123456789".toList ++ "+- \t\n\x0b\x0c\r".toList from rfl]
        exact List.mem_append_left _ hm)
      simp only [Osip.digits, this]
  have hsp : ∀ c ∈ r.head?, isSpaceC c = false ∧ c ≠ '-' ∧ c ≠ '+' := by
    intro c hc
    have h := hr c hc
    refine ⟨?_, fun e => h (by rw [e]; decide), fun e => h (by rw [e]; decide)⟩
    simp only [isSpaceC, Bool.or_eq_false_iff, beq_eq_false_iff_ne]
    refine ⟨⟨⟨⟨⟨?_, ?_⟩, ?_⟩, ?_⟩, ?_⟩, ?_⟩ <;> rintro rfl <;> exact h (by decide)
  rcases hsg with rfl | rfl | rfl
  · have e : (w ++ [] ++ r).dropWhile isSpaceC = r := by
      rw [List.append_nil]; exact drop_blanks hw fun c hc => (hsp c hc).1
    rw [osip_atoi, strtol, e]
    cases r with
    | nil => decide
    | cons c r =>
      have := hsp c (by simp)
      split
      next heq => simp only [List.cons.injEq] at heq; exact absurd heq.1 this.2.1
      next heq => simp only [List.cons.injEq] at heq; exact absurd heq.1 this.2.2
      next => rw [hd]; decide
  · have e : (w ++ ['+'] ++ r).dropWhile isSpaceC = '+' :: r := by
      rw [List.append_assoc]; exact drop_blanks hw (by simp; decide)
    rw [osip_atoi, strtol, e]
    simp only [hd]
    decide
  · have e : (w ++ ['-'] ++ r).dropWhile isSpaceC = '-' :: r := by
      rw [List.append_assoc]; exact drop_blanks hw (by simp; decide)
    rw [osip_atoi, strtol, e]
    simp only [hd]
    decide

/-! ## Where it matters -/

/-- Numerals as `Nat.toDigits` writes them are numerals. -/
theorem numeral_toDigits (n : Nat) : Numeral (Nat.toDigits 10 n) n := by
  induction n using Nat.strongRecOn with
  | ind n ih =>
    by_cases h : n < 10
    · rw [Nat.toDigits_of_lt_base h]; exact .one h
    · rw [Nat.toDigits_of_base_le (by omega) (by omega)]
      have := Numeral.more (ih (n / 10) (by omega)) (d := n % 10) (by omega)
      rwa [show 10 * (n / 10) + n % 10 = n by omega] at this

theorem viaPort_number {via v' : Via} {q : List Char} {port : Option (List Char)} {r : List Char}
    (h : viaPort via q port = some (.ok (v', r))) : v'.port = via.port ∨ ∃ p, v'.port = some p ∧ 0 ≤ osip_atoi (some p) := by
  unfold viaPort at h
  split at h
  · simp only [bind_pure_comp] at h
    split at h
    · cases h
    · obtain ⟨p, -, h⟩ := Option.bind_eq_some_iff.1 h
      split at h
      · cases h
      · cases h
        exact .inr ⟨p, rfl, by omega⟩
  · cases h; exact .inl rfl

theorem viaPort_refused {via v' : Via} {q : List Char} {port : Option (List Char)} {i : Int}
    (h : viaPort via q port = some (.error (i, v'))) : i = OSIP_SYNTAXERROR := by
  unfold viaPort at h
  split at h
  · simp only [bind_pure_comp] at h
    split at h
    · cases h; rfl
    · obtain ⟨p, -, h⟩ := Option.bind_eq_some_iff.1 h
      split at h
      · cases h; rfl
      · cases h
  · cases h

theorem viaV6_port {via v' : Via} {host q : List Char} {v6 port : Option (List Char)}
    (h : viaV6 via host q v6 = some (.ok (v', port))) : v'.port = via.port := by
  unfold viaV6 at h
  split at h
  · obtain ⟨a, -, h⟩ := Option.bind_eq_some_iff.1 h
    split at h
    · cases h
    · split at h
      · cases h
      · split at h
        · cases h
        · obtain ⟨b, -, h⟩ := Option.bind_eq_some_iff.1 h
          obtain ⟨c, -, h⟩ := Option.bind_eq_some_iff.1 h
          cases h; rfl
  · obtain ⟨a, -, h⟩ := Option.bind_eq_some_iff.1 h
    cases h; rfl

theorem viaHostPort_number {via v' : Via} {host q : List Char} (h : viaHostPort via host q = some (OSIP_SUCCESS, v')) (hn : via.port = none) :
    ∀ p ∈ v'.port, 0 ≤ osip_atoi (some p) := by
  unfold viaHostPort at h
  obtain ⟨a, -, h⟩ := Option.bind_eq_some_iff.1 h
  obtain ⟨b, h6, h⟩ := Option.bind_eq_some_iff.1 h
  split at h
  · cases h
    grind
  · obtain ⟨c, hp, h⟩ := Option.bind_eq_some_iff.1 h
    have e6 := viaV6_port h6
    split at h
    · cases h
      exact absurd (viaPort_refused hp) (by decide)
    · have ep := viaPort_number hp
      have key : ∀ p ∈ v'.port, 0 ≤ osip_atoi (some p) := by
        split at h
        · cases h
          grind
        · split at h
          · cases h
          · obtain ⟨d, -, h⟩ := Option.bind_eq_some_iff.1 h
            cases h
            grind
      exact key

theorem via_parse_number {s : List Char} {x : Via} (h : osip_via_parse s = some (OSIP_SUCCESS, x)) :
    ∀ p ∈ x.port, 0 ≤ osip_atoi (some p) := by
  unfold osip_via_parse at h
  obtain ⟨a, -, h⟩ := Option.bind_eq_some_iff.1 h
  split at h
  · cases h
  · obtain ⟨b, -, h⟩ := Option.bind_eq_some_iff.1 h
    split at h
    · cases h
    · split at h
      · cases h
      · obtain ⟨c, -, h⟩ := Option.bind_eq_some_iff.1 h
        obtain ⟨d, -, h⟩ := Option.bind_eq_some_iff.1 h
        split at h
        · cases h
        · split at h
          · cases h
          · obtain ⟨e, -, h⟩ := Option.bind_eq_some_iff.1 h
            obtain ⟨f, -, h⟩ := Option.bind_eq_some_iff.1 h
            split at h
            · cases h; simp
            · obtain ⟨g, -, h⟩ := Option.bind_eq_some_iff.1 h
              split at h
              · exact viaHostPort_number h rfl
              · split at h
                · split at h
                  · cases h
                  · obtain ⟨k, -, h⟩ := Option.bind_eq_some_iff.1 h
                    obtain ⟨l, -, h⟩ := Option.bind_eq_some_iff.1 h
                    split at h
                    next k ps =>
                    by_cases hi : k = 0
                    · rw [if_neg (by simpa using hi)] at h
                      exact viaHostPort_number h rfl
                    · rw [if_pos hi] at h
                      simp only [pure, Option.some.injEq, Prod.mk.injEq] at h
                      exact absurd h.1 hi
                · exact viaHostPort_number h rfl

/-- **C132**. A Via header whose port is a number is accepted only if the lower 32 bits of the number are below 2^31 and it fits a
`long`. For numbers below 2^32 this is the check meant. -/
theorem c132_via {s : List Char} {x : Via} (h : osip_via_parse s = some (OSIP_SUCCESS, x)) {p : Str} (hp : x.port = some p) {n : Nat}
    (hn : Reads p n) : n < 2 ^ 63 ∧ n % 2 ^ 32 < 2 ^ 31 := by
  have h0 := via_parse_number h p hp
  have h1 := c132_negative hn
  omega

/-- **C132**. What Content-Length says about a body which is not multipart, in terms of the number written there: the body is as long as
its lower 32 bits say, and the message is refused if there is less. -/
theorem c132_body {ty st : Str} (hty : lower ty ≠ "multipart".toList) (params : List Param) {eol d : List Char}
    (he : eol = ['\r', '\n'] ∨ eol = ['\n'] ∨ eol = ['\r'] ∧ d.head? ≠ some '\n') (hd : d ≠ []) (hl : d.length < 2 ^ 31) (z : List Char)
    {v : Str} {n : Nat} (hv : Reads v n) :
    msg_osip_body_parse (some ⟨some ty, some st, params⟩) (some v) (eol ++ d ++ NUL :: z) (eol ++ d).length =
      some (if n < 2 ^ 63 ∧ n % 2 ^ 32 ≤ d.length then (OSIP_SUCCESS, [⟨d.take (n % 2 ^ 32), [], none⟩], some v)
        else (OSIP_SYNTAXERROR, [], some v)) := by
  rw [(c84_plain hty params he hd hl z).1 v]
  have hneg := c132_negative hv
  by_cases hb : 0 ≤ osip_atoi (some v)
  · have hn : n < 2 ^ 63 ∧ n % 2 ^ 32 < 2 ^ 31 := by omega
    have e : osip_atoi (some v) = ((n % 2 ^ 32 : Nat) : Int) := by
      rw [osip_atoi, strtol_reads hv, if_neg (by omega), if_neg (by omega), toInt32]
      omega
    rw [e]
    by_cases hc : n % 2 ^ 32 ≤ d.length
    · rw [if_pos ⟨by omega, by omega⟩, if_pos ⟨hn.1, hc⟩, Int.toNat_natCast]
    · rw [if_neg (by omega), if_neg (by omega)]
  · rw [if_neg (by omega), if_neg (by omega)]

/-- An INVITE whose Content-Length is 2^32 + 5, with the sequence number 2^32 + 1 and the port 2^32 + 5060 in its Via. -/
def tooLarge : List (Str × Str) :=
  [("Via".toList, " SIP/2.0/UDP a:4294972356".toList), ("CSeq".toList, " 4294967297 INVITE".toList),
    ("Content-Type".toList, " text/plain".toList), ("Content-Length".toList, " 4294967301".toList)]

/-- **C132 is violated**: a Content-Length, a port and a sequence number which do not fit are not refused. The message below is accepted with
the first five bytes of what follows as its body, the answer to a request with this Via is sent to port 5060, and a dialog takes the
sequence number for 1. A port of twenty digits and one of 2^31 are refused. -/
theorem c132_violated :
    ((osip_message_parse sscanf2 sscanfD1 true (theTable true false)
        (wire "\r\n".toList "INVITE sip:b SIP/2.0".toList tooLarge "hello, world".toList)).any fun r =>
      r.1 == 0 && decide (r.2.bodies.map (·.body) = ["hello".toList]) &&
      decide ((r.2.hdr .via).map (fun
        | .via v => v.port
        | _ => none) = [some "4294972356".toList]) &&
      decide ((r.2.hdr .cseq).map (fun
        | .cseq c => c.number
        | _ => none) = [some "4294967297".toList])) = true ∧
    osip_response_get_destination { vias := [{ host := some "a".toList, port := some "4294972356".toList }] } = (some "a".toList, 5060) ∧
    (update_osip_cseq_as_uas {} { cseq := some { method := some "INVITE".toList, number := some "4294967297".toList } }).2.remote_cseq = 1 ∧
    (osip_via_parse (Str.buf "SIP/2.0/UDP a:2147483648".toList)).map (·.1) = some OSIP_SYNTAXERROR ∧
    (osip_via_parse (Str.buf "SIP/2.0/UDP a:99999999999999999999".toList)).map (·.1) = some OSIP_SYNTAXERROR := by
  decide +kernel

/-! ## Examples -/

example : Reads "\t +0012;x".toList 12 := by
  have : Numeral "0012".toList 12 := .more (.more (.more (.one (d := 0) (by decide)) (d := 0) (by decide)) (d := 1) (by decide)) (d := 2) (by decide)
  exact .plus (w := "\t ".toList) (sg := ['+']) (r := ";x".toList) (by decide) (.inr rfl) this (by decide)

example : osip_atoi (some "\t +0012;x".toList) = 12 ∧ osip_atoi (some "-2147483648".toList) = -2147483648 ∧
    osip_atoi (some "2147483647".toList) = 2147483647 ∧ osip_atoi (some "2147483648".toList) = -2147483648 ∧
    osip_atoi (some "9223372036854775808".toList) = -1 ∧ osip_atoi (some "-9223372036854775809".toList) = 0 ∧
    osip_atoi (some " +x1".toList) = 0 := by decide +kernel

end Osip
