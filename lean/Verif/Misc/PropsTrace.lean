import Verif.Misc.Trace
import Verif.ParamSpec

/-!
# C105: the trace logs the levels that were chosen, and every line stays in its buffer
-/

set_option autoImplicit false

namespace Osip.Trace

/-- The call is about one of the eight levels. -/
def Call.Valid : Call → Prop
  | .untilLevel _ => True
  | .enable l | .disable l => l < 8

/-- What a call says about a level. -/
def Call.says (i : Nat) : Call → Option Bool
  | .untilLevel l => some (decide ((i : Int) < l))
  | .enable l => if i = l then some true else none
  | .disable l => if i = l then some false else none

theorem run_call {t : Table} (ht : t.length = 8) {c : Call} (hc : c.Valid) :
    ∃ t', c.run t = some t' ∧ t'.length = 8 ∧ ∀ i < 8, t'[i]? = ((c.says i).or t[i]?) := by
  cases c with
  | untilLevel l =>
    refine ⟨_, rfl, by simp [osip_trace_enable_until_level], fun i hi => ?_⟩
    simp [osip_trace_enable_until_level, Call.says, hi]
  | enable l =>
    have hl : l < 8 := hc
    refine ⟨t.set l true, by simp [Call.run, osip_trace_enable_level, ht, hl], by simp [ht], fun i hi => ?_⟩
    by_cases e : i = l
    · subst e; simp [Call.says, ht, hi]
    · simp [Call.says, e, List.getElem?_set, Ne.symm e]
  | disable l =>
    have hl : l < 8 := hc
    refine ⟨t.set l false, by simp [Call.run, osip_trace_disable_level, ht, hl], by simp [ht], fun i hi => ?_⟩
    by_cases e : i = l
    · subst e; simp [Call.says, ht, hi]
    · simp [Call.says, e, List.getElem?_set, Ne.symm e]

theorem run_calls (cs : List Call) : ∀ {t : Table}, t.length = 8 → (∀ c ∈ cs, c.Valid) →
    ∃ t', runCalls cs t = some t' ∧ t'.length = 8 ∧ ∀ i < 8, t'[i]? = ((cs.filterMap (Call.says i)).getLast?.or t[i]?) := by
  induction cs with
  | nil => intro t ht _; exact ⟨t, rfl, ht, by simp⟩
  | cons c cs ih =>
    intro t ht hc
    obtain ⟨t1, e1, l1, g1⟩ := run_call ht (hc c (by simp))
    obtain ⟨t2, e2, l2, g2⟩ := ih l1 (fun x hx => hc x (by simp [hx]))
    refine ⟨t2, by simp [runCalls, e1, e2], l2, fun i hi => ?_⟩
    rw [g2 i hi, g1 i hi, List.filterMap_cons]
    cases hs : c.says i with
    | none => simp
    | some b => cases (cs.filterMap (Call.says i)) <;> simp [List.getLast?_cons]

/-- **C105**. After any calls for the eight levels, a level is logged as the last call that speaks about it says; before the first
one nothing is logged. -/
theorem c105_levels {cs : List Call} (hc : ∀ c ∈ cs, c.Valid) :
    ∃ t, runCalls cs initial = some t ∧
      ∀ i < 8, osip_is_trace_level_activate t i = some ((cs.filterMap (Call.says i)).getLast?.getD false) := by
  obtain ⟨t, e, _, g⟩ := run_calls cs (t := initial) (by decide) hc
  refine ⟨t, e, fun i hi => ?_⟩
  have hi' : initial[i]? = some false := by simp only [initial, List.getElem?_replicate, hi, if_true]
  rw [osip_is_trace_level_activate, g i hi, hi']
  cases (cs.filterMap (Call.says i)).getLast? <;> simp

/-- **C105** fails for other levels: the table is read and written outside. -/
theorem c105_level_violated {t : Table} (ht : t.length = 8) {l : Nat} (hl : 8 ≤ l) (file : Option Str) (li : Int) (text : Str) :
    osip_trace_enable_level t l = none ∧ osip_trace_disable_level t l = none ∧ osip_is_trace_level_activate t l = none ∧
      osip_trace t file li l text = none := by
  have h : t[l]? = none := by simp [ht, hl]
  refine ⟨?_, ?_, h, ?_⟩
  · simp [osip_trace_enable_level, ht, Nat.not_lt.2 hl]
  · simp [osip_trace_disable_level, ht, Nat.not_lt.2 hl]
  · simp [osip_trace, h]

theorem intText_ok (n : Int) : Str.Ok (intText n) := by
  have hd : ∀ k : Nat, NUL ∉ Nat.toDigits 10 k := fun k hm => by
    have := toDigits_isDigit k NUL hm
    revert this
    decide
  unfold intText
  intro hm
  split at hm
  · rcases List.mem_cons.1 hm with hm | hm
    · revert hm; decide
    · exact hd _ hm
  · exact hd _ hm

/-- The part of a name behind the last slash, or the last backslash if there is no slash. -/
theorem c105_name {d n : Str} (hn : '/' ∉ n) :
    baseName (d ++ '/' :: n) = n ∧ ('/' ∉ d → '\\' ∉ n → baseName (d ++ '\\' :: n) = n) ∧ ('\\' ∉ n → baseName n = n) := by
  have key : ∀ (c : Char) (d n : Str), c ∉ n → behindLast c (d ++ c :: n) = some n := by
    intro c d n hc
    rw [behindLast, if_pos (by simp)]
    have : (d ++ c :: n).reverse.takeWhile (· ≠ c) = n.reverse := by
      rw [List.reverse_append, List.reverse_cons, List.append_assoc, List.takeWhile_append_of_pos (by intro x hx; simp only [List.mem_reverse] at hx; simp; rintro rfl; exact hc hx)]
      simp
    rw [this, List.reverse_reverse]
  refine ⟨by simp [baseName, key '/' d n hn], fun hd hb => ?_, fun hb => ?_⟩
  · have : behindLast '/' (d ++ '\\' :: n) = none := by rw [behindLast, if_neg (by simp [hd, hn])]
    simp [baseName, this, key '\\' d n hb]
  · have h1 : behindLast '/' n = none := by rw [behindLast, if_neg hn]
    have h2 : behindLast '\\' n = none := by rw [behindLast, if_neg hb]
    simp [baseName, h1, h2]

theorem baseName_ok {f : Str} (h : f.Ok) : (baseName f).Ok := by
  have key : ∀ c s, behindLast c f = some s → Str.Ok s := by
    intro c s e hm
    unfold behindLast at e
    split at e
    · simp only [Option.some.injEq] at e
      subst e
      exact h (List.mem_reverse.1 (List.takeWhile_subset _ (List.mem_reverse.1 hm)))
    · simp at e
  unfold baseName
  cases h1 : behindLast '/' f with
  | some s => exact key _ _ h1
  | none => cases h2 : behindLast '\\' f with
    | some s => exact key _ _ h2
    | none => exact h

theorem lineHead_ok {level : Nat} (hl : level < 8) {fi : Str} (hf : fi.Ok) (li : Int) : (lineHead level fi li).Ok := by
  have h1 : NUL ∉ tag level := by
    have : ∀ l < 8, NUL ∉ tag l := by decide
    exact this level hl
  have h2 := intText_ok li
  intro hm
  simp only [lineHead, List.mem_append] at hm
  rcases hm with (((hm | hm) | hm) | hm) | hm
  · exact h1 hm
  · exact hf hm
  · revert hm; decide
  · exact h2 hm
  · revert hm; decide

/-- What two calls of `snprintf` leave in the buffer. -/
theorem two_writes {h x : Str} (hh : h.Ok) (hx : x.Ok) (hn : h.length ≤ 511) :
    ((snprintf (List.replicate MAX_LENGTH_TR NUL) 0 (MAX_LENGTH_TR - 1) h).bind fun b =>
      (snprintf b h.length (MAX_LENGTH_TR - 1 - h.length) x).bind fun b => some (some (Buf.str b))) = some (some ((h ++ x).take 510)) := by
  have hb : ∀ n, (List.replicate n NUL) = List.replicate n NUL := fun _ => rfl
  have e1 : snprintf (List.replicate MAX_LENGTH_TR NUL) 0 ((MAX_LENGTH_TR : Int) - 1) h =
      some (h.take 510 ++ NUL :: List.replicate (511 - (h.take 510).length) NUL) := by
    have hl : (h.take 510).length ≤ 510 := by simp; omega
    have hs : (if (MAX_LENGTH_TR : Int) - 1 < 0 then (MAX_LENGTH_TR : Int) - 1 + 2 ^ 64 else (MAX_LENGTH_TR : Int) - 1).toNat = 511 := by decide
    simp only [snprintf, hs]
    rw [if_neg (by omega), Buf.wrN, if_pos (by simp only [List.length_append, List.length_replicate, MAX_LENGTH_TR, List.length_cons, List.length_nil]; simp; omega)]
    simp only [Option.some.injEq]
    simp only [MAX_LENGTH_TR, List.drop_replicate]
    simp
  rw [e1]
  simp only [Option.bind_some]
  by_cases h511 : h.length = 511
  · have hs : (if (MAX_LENGTH_TR : Int) - 1 - h.length < 0 then (MAX_LENGTH_TR : Int) - 1 - h.length + 2 ^ 64 else (MAX_LENGTH_TR : Int) - 1 - h.length).toNat = 0 := by
      rw [h511]; decide
    simp only [snprintf, hs, if_true, Option.bind_some]
    rw [str_at (fun hm => hh (List.mem_of_mem_take hm))]
    rw [List.take_append_of_le_length (by omega)]
  · have ht : h.take 510 = h := List.take_of_length_le (by omega)
    have hs : (if (MAX_LENGTH_TR : Int) - 1 - h.length < 0 then (MAX_LENGTH_TR : Int) - 1 - h.length + 2 ^ 64 else (MAX_LENGTH_TR : Int) - 1 - h.length).toNat = 511 - h.length := by
      rw [if_neg (by simp only [MAX_LENGTH_TR]; omega)]; simp only [MAX_LENGTH_TR]; omega
    simp only [snprintf, hs, ht]
    have hq : ∃ q, (NUL :: List.replicate (511 - h.length) NUL) = q ∧ q.length = 512 - h.length := ⟨_, rfl, by simp; omega⟩
    obtain ⟨q, hq, hql⟩ := hq
    rw [if_neg (by omega), hq, Buf.wrN, if_pos (by simp [hql]; omega)]
    simp only [Option.bind_some, Option.some.injEq]
    have : (511 - h.length - 1) = 510 - h.length := by omega
    rw [this, Int.toNat_natCast, List.take_left, List.take_append, ht]
    have := str_at (s := h ++ x.take (510 - h.length)) (by
      intro hm
      rcases List.mem_append.1 hm with hm | hm
      · exact hh hm
      · exact hx (List.mem_of_mem_take hm)) (((h ++ q).drop (h.length + (x.take (510 - h.length) ++ [NUL]).length)))
    simpa using this

/-- **C105**, partial. A line for a level that is logged is the head and the text, as much of it as fits into 510 bytes; nothing is
written outside the buffer. The head must not be longer than 511 bytes. Missing: `c105_line_violated`. -/
theorem c105_line_partial {t : Table} {f : Str} {li : Int} {level : Nat} {text : Str} (ht : t[level]? = some true)
    (hl : level < 8) (hf : f.Ok) (hx : text.Ok) (hn : (lineHead level (baseName f) li).length ≤ 511) :
    osip_trace t (some f) li level text = some (some ((lineHead level (baseName f) li ++ text).take 510)) := by
  have := two_writes (lineHead_ok hl (baseName_ok hf) li) hx hn
  simpa [osip_trace, ht] using this

/-- **C105**. Nothing is logged, and nothing else happens, for a level that is not chosen. -/
theorem c105_silent {t : Table} {level : Nat} (ht : t[level]? = some false) (file : Option Str) (li : Int) (text : Str) :
    osip_trace t file li level text = some none := by
  simp [osip_trace, ht]

/-- **C105** fails for a long file name: the rest of the buffer is counted as a negative number, which is a huge one for `vsnprintf`. -/
theorem c105_line_violated {t : Table} {f : Str} {li : Int} {level : Nat} {text : Str} (ht : t[level]? = some true)
    (hn : 512 ≤ (lineHead level (baseName f) li).length) (hi : (lineHead level (baseName f) li).length < 2 ^ 31) :
    osip_trace t (some f) li level text = none := by
  generalize hg : lineHead level (baseName f) li = h at hn hi
  have key : ∀ b : Buf, b.length = 512 → snprintf b h.length ((MAX_LENGTH_TR : Int) - 1 - h.length) text = none := by
    intro b hb
    have hs : ∃ k, (if (MAX_LENGTH_TR : Int) - 1 - h.length < 0 then (MAX_LENGTH_TR : Int) - 1 - h.length + 2 ^ 64 else (MAX_LENGTH_TR : Int) - 1 - h.length).toNat = k + 1 := by
      rw [if_pos (by simp only [MAX_LENGTH_TR]; omega)]
      exact ⟨((MAX_LENGTH_TR : Int) - 1 - h.length + 2 ^ 64).toNat - 1, by simp only [MAX_LENGTH_TR]; omega⟩
    obtain ⟨k, hs⟩ := hs
    simp only [snprintf, hs]
    rw [if_neg (by omega), Buf.wrN, if_neg (by simp [hb]; omega)]
  have hlen : ∀ b b' : Buf, ∀ i n s, snprintf b i n s = some b' → b'.length = b.length := by
    intro b b' i n s e
    unfold snprintf at e
    simp only at e
    generalize (if n < 0 then n + 2 ^ 64 else n).toNat = m at e
    split at e
    · simp only [Option.some.injEq] at e; rw [e]
    · unfold Buf.wrN at e
      split at e
      · next hc =>
        simp only [Option.some.injEq] at e
        subst e
        simp only [Int.toNat_natCast] at hc ⊢
        simp only [List.length_append, List.length_take, List.length_drop] at hc ⊢
        omega
      · simp at e
  simp [osip_trace, ht]
  rw [hg]
  intro a e a2 e2
  rw [key a (by rw [hlen _ _ _ _ _ e, List.length_replicate]; rfl)] at e2
  simp at e2

/-- Levels 0 to 3 are chosen and level 2 is not wanted. -/
example : runCalls [.untilLevel 4, .disable 2] initial = some [true, true, false, true, false, false, false, false] := by decide +kernel

example : osip_trace (osip_trace_enable_until_level 3) (some "src/osip.c".toList) 42 2 "no memory".toList =
    some (some "| ERROR | <osip.c: 42> no memory".toList) := by decide +kernel

end Osip.Trace
