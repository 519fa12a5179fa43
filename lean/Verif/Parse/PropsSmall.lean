import Verif.Parse.Params

/-!
# C49: CSeq and Call-ID
-/

set_option autoImplicit false

namespace Osip

/-! ## Specification -/

/-- A blank: space, tab, CR or LF. -/
def NoLeadingBlank (s : Str) : Prop := ∀ c, s.head? = some c → c ∉ [' ', '\t', '\r', '\n']

/-- Cuts a string at the first `c`: what is before and what is after it. -/
def cutAt (c : Char) : Str → Option (Str × Str)
  | [] => none
  | d :: s => if d = c then some ([], s) else (cutAt c s).map fun (a, b) => (d :: a, b)

/-! ## Lemmas -/

theorem cutAt_none {c : Char} {s : Str} (h : c ∉ s) : cutAt c s = none := by
  induction s with
  | nil => rfl
  | cons d s ih =>
    simp only [List.mem_cons, not_or] at h
    simp [cutAt, Ne.symm h.1, ih h.2]

theorem cutAt_some {c : Char} {a : Str} (b : Str) (h : c ∉ a) : cutAt c (a ++ c :: b) = some (a, b) := by
  induction a with
  | nil => simp [cutAt]
  | cons d a ih =>
    simp only [List.mem_cons, not_or] at h
    simp [cutAt, Ne.symm h.1, ih h.2]

theorem dropWhile_leading {s : Str} (h : NoLeadingBlank s) : s.dropWhile isBlank = s := by
  cases s with
  | nil => rfl
  | cons c s =>
    have := h c rfl
    rw [List.dropWhile_cons_of_neg]
    rw [isBlank_eq]
    simpa using this

theorem drop_len {s : Str} (r : List Char) : (s ++ r).drop s.length = r := by simp

theorem drop_app (a b : List Char) {n : Nat} (h : n = a.length) : (a ++ b).drop n = b := by
  subst h; simp

theorem pdiff_app (a b : List Char) : pdiff b (a ++ b) = a.length := by
  simp [pdiff]

/-! ## Properties -/

/-- **C49**. The CSeq parser on every string, with any bytes after the terminator: a syntax error without a
space after the first character; otherwise the number is what is before the first space, without outer
blanks, and the method is the rest, without leading blanks. Nothing outside the string and its terminator is
read. -/
theorem c49_cseq_parse {s : Str} (hs : s.Ok) (r : List Char) :
    osip_cseq_parse (s ++ NUL :: r) = some (match cutAt ' ' s with
      | none => (OSIP_SYNTAXERROR, {})
      | some ([], _) => (OSIP_SYNTAXERROR, {})
      | some (a, b) => (OSIP_SUCCESS, { number := some (trim a), method := some (b.dropWhile isBlank) })) := by
  unfold osip_cseq_parse
  rcases cstrchr_cases (c := ' ') hs (by decide) r with ⟨hn, h⟩ | ⟨a, b, rfl, ha, h⟩
  · simp only [h, Option.bind_eq_bind, Option.bind_some, cutAt_none hn]; rfl
  · obtain ⟨hoka, hokb⟩ := ok_append_iff.1 hs
    obtain ⟨_, hokb⟩ := ok_cons.1 hokb
    simp only [h, Option.bind_eq_bind, Option.bind_some, cutAt_some b ha, cstr_at hs, drop_len]
    have e1 : pdiff (' ' :: b ++ NUL :: r) (a ++ ' ' :: b ++ NUL :: r) = a.length := by
      rw [List.append_assoc]; exact pdiff_app _ _
    have e2 : pdiff (NUL :: r) (' ' :: b ++ NUL :: r) = b.length + 1 := by
      rw [pdiff_app]; simp
    simp only [e1, e2]
    cases a with
    | nil => simp
    | cons x a =>
      rw [if_neg (by simp; omega)]
      have e3 := clrncpy_at hoka (b := ' ' :: b) (ok_cons.2 ⟨by decide, hokb⟩) r (n := ((x :: a).length : Int)) rfl
      rw [← List.append_assoc] at e3
      simp only [e3, Option.bind_some]
      rw [if_neg (by omega)]
      have e4 := clrncpy_end hokb r (n := (b.length : Int) + 1) rfl
      simp [e4]

/-- **C49**. Every CSeq whose number has no space and whose parts have no outer blanks is written without
overflow and read back. -/
theorem c49_cseq_round_trip {number method : Str} (hn : number.Ok) (hm : method.Ok) (h0 : number ≠ [])
    (h1 : ' ' ∉ number) (h2 : Trimmed number) (h3 : NoLeadingBlank method) (r : List Char) :
    let c : CSeq := { number := some number, method := some method }
    ∃ s, osip_cseq_to_str (some c) = some (OSIP_SUCCESS, some s) ∧
      osip_cseq_parse (s ++ NUL :: r) = some (OSIP_SUCCESS, c) := by
  refine ⟨number ++ ' ' :: method, ?_, ?_⟩
  · have : (number ++ ' ' :: method).take (method.length + number.length + 2 - 0 - 1) = number ++ ' ' :: method :=
      List.take_of_length_le (by simp; omega)
    simp [osip_cseq_to_str, putn]
    simpa using this
  · rw [c49_cseq_parse (ok_append hn (ok_cons.2 ⟨by decide, hm⟩)) r, cutAt_some _ h1]
    cases number with
    | nil => exact absurd rfl h0
    | cons x a =>
      simp only
      rw [show trim (x :: a) = x :: a from h2, dropWhile_leading h3]

example : osip_cseq_parse (Str.buf "4711  INVITE".toList) =
    some (0, { number := some "4711".toList, method := some "INVITE".toList }) := by decide +kernel
example : osip_cseq_to_str (some { number := some "4711".toList, method := some "INVITE".toList }) =
    some (0, some "4711 INVITE".toList) := by decide +kernel

/-- **C49**. The Call-ID parser on every string: a syntax error if there is nothing before the first `@` (or
nothing at all), otherwise the parts before and after it, without outer blanks; without `@` there is no host. -/
theorem c49_call_id_parse {s : Str} (hs : s.Ok) (r : List Char) :
    ∃ c, osip_call_id_parse (s ++ NUL :: r) = some c ∧
      match cutAt '@' s with
      | none => if s = [] then c.1 = OSIP_SYNTAXERROR
          else c = (OSIP_SUCCESS, { number := some (trim s), host := none })
      | some ([], _) => c.1 = OSIP_SYNTAXERROR
      | some (a, b) => c = (OSIP_SUCCESS, { number := some (trim a), host := some (trim b) }) := by
  unfold osip_call_id_parse
  rcases cstrchr_cases (c := '@') hs (by decide) r with ⟨hn, h⟩ | ⟨a, b, rfl, ha, h⟩
  · simp only [h, Option.bind_eq_bind, Option.bind_some, cutAt_none hn, cstr_at hs, drop_len, pdiff_app]
    cases s with
    | nil => exact ⟨_, rfl, rfl⟩
    | cons x s =>
      rw [if_neg (by simp; omega)]
      have e3 := clrncpy_at hs (b := []) (by simp [Str.Ok]) r (n := ((x :: s).length : Int)) rfl
      rw [List.nil_append] at e3
      simp only [e3, Option.bind_some, if_neg (List.cons_ne_nil x s)]
      exact ⟨_, rfl, rfl⟩
  · obtain ⟨hoka, hokb⟩ := ok_append_iff.1 hs
    obtain ⟨_, hokb⟩ := ok_cons.1 hokb
    simp only [h, Option.bind_eq_bind, Option.bind_some, cutAt_some b ha, cstr_at hs, drop_len]
    have e1 : pdiff ('@' :: b ++ NUL :: r) (a ++ '@' :: b ++ NUL :: r) = a.length := by
      rw [List.append_assoc]; exact pdiff_app _ _
    have e2 : pdiff (NUL :: r) ('@' :: b ++ NUL :: r) = b.length + 1 := by
      rw [pdiff_app]; simp
    simp only [e1, e2]
    rw [if_neg (by omega)]
    have e4 := clrncpy_at hokb (b := []) (by simp [Str.Ok]) r (n := (b.length : Int) + 1 - 1) (by omega)
    rw [List.nil_append] at e4
    simp only [List.cons_append, List.drop_succ_cons, List.drop_zero, e4, Option.bind_some]
    cases a with
    | nil => exact ⟨_, rfl, rfl⟩
    | cons x a =>
      rw [if_neg (by simp; omega)]
      have e3 := clrncpy_at hoka (b := '@' :: b) (ok_cons.2 ⟨by decide, hokb⟩) r (n := ((x :: a).length : Int)) rfl
      rw [← List.append_assoc] at e3
      simp only [List.cons_append] at e3 ⊢
      simp only [List.append_assoc, List.cons_append] at e3 ⊢
      simp only [e3, Option.bind_some]
      exact ⟨_, rfl, rfl⟩

/-- **C49**. Every Call-ID whose number has no `@` and whose parts have no outer blanks is written without
overflow and read back. -/
theorem c49_call_id_round_trip {number : Str} {host : Option Str} (hn : number.Ok) (hh : ∀ h ∈ host, h.Ok)
    (h0 : number ≠ []) (h1 : '@' ∉ number) (h2 : Trimmed number) (h3 : ∀ h ∈ host, Trimmed h) (r : List Char) :
    let c : CallId := { number := some number, host := host }
    ∃ s, osip_call_id_to_str (some c) = some (OSIP_SUCCESS, some s) ∧
      osip_call_id_parse (s ++ NUL :: r) = some (OSIP_SUCCESS, c) := by
  cases host with
  | none =>
    refine ⟨number, by simp [osip_call_id_to_str, put], ?_⟩
    obtain ⟨c, e1, e2⟩ := c49_call_id_parse hn r
    rw [cutAt_none h1] at e2
    simp only [if_neg h0] at e2
    rw [e1, e2, show trim number = number from h2]
  | some h =>
    refine ⟨number ++ '@' :: h, ?_, ?_⟩
    · simp only [osip_call_id_to_str, put, List.nil_append]
      rw [if_pos (by simp; omega)]
      rfl
    · obtain ⟨c, e1, e2⟩ := c49_call_id_parse (s := number ++ '@' :: h) (ok_append hn (ok_cons.2 ⟨by decide, hh h rfl⟩)) r
      rw [cutAt_some _ h1] at e2
      cases number with
      | nil => exact absurd rfl h0
      | cons x a =>
        simp only at e2
        rw [e1, e2, show trim (x :: a) = x :: a from h2, show trim h = h from h3 h rfl]

example : osip_call_id_parse (Str.buf "f81d4fae@ foo.bar ".toList) =
    some (0, { number := some "f81d4fae".toList, host := some "foo.bar".toList }) := by decide +kernel

end Osip
