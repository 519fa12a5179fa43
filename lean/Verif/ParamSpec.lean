import Verif.Msg

/-!
# Specification of parameter lookup and of decimal numbers
-/

namespace Osip

/-- `p` is the first parameter whose name is `name` (lower case), ignoring case. -/
def FirstNamed (ps : List Param) (name : Str) (p : Param) : Prop :=
  ∃ before after, ps = before ++ p :: after ∧
    (∀ q ∈ before, q.gname.map toLowerC ≠ name) ∧ p.gname.map toLowerC = name

/-- No parameter has the name. -/
def NoneNamed (ps : List Param) (name : Str) : Prop := ∀ q ∈ ps, q.gname.map toLowerC ≠ name

theorem named_iff (p : Param) (n : String) (hn : n.toList.map toLowerC = n.toList) :
    (p.gname.length == n.toList.length && strcaseEq p.gname n.toList) = true ↔
      p.gname.map toLowerC = n.toList := by
  unfold strcaseEq
  rw [hn]
  simp only [Bool.and_eq_true, beq_iff_eq]
  constructor
  · exact fun h => h.2
  · intro h
    exact ⟨by rw [← h, List.length_map], h⟩

theorem paramByName_some {ps : List Param} {n : String} (hn : n.toList.map toLowerC = n.toList)
    {p : Param} : paramByName ps n = some p ↔ FirstNamed ps n.toList p := by
  unfold paramByName FirstNamed
  rw [List.find?_eq_some_iff_append]
  constructor
  · rintro ⟨h, a, c, h1, h2⟩
    refine ⟨a, c, h1, ?_, (named_iff p n hn).1 h⟩
    intro q hq
    have := h2 q hq
    rwa [Bool.not_eq_true', ← Bool.not_eq_true, named_iff q n hn] at this
  · rintro ⟨a, c, h1, h2, h3⟩
    refine ⟨(named_iff p n hn).2 h3, a, c, h1, ?_⟩
    intro q hq
    have := h2 q hq
    rwa [Bool.not_eq_true', ← Bool.not_eq_true, named_iff q n hn]

theorem paramByName_none {ps : List Param} {n : String} (hn : n.toList.map toLowerC = n.toList) :
    paramByName ps n = none ↔ NoneNamed ps n.toList := by
  unfold paramByName NoneNamed
  rw [List.find?_eq_none]
  constructor
  · intro h q hq
    have := h q hq
    rwa [named_iff q n hn] at this
  · intro h q hq
    rw [named_iff q n hn]
    exact h q hq

theorem FirstNamed.unique {ps : List Param} {name : Str} {p q : Param} (h1 : FirstNamed ps name p)
    (h2 : FirstNamed ps name q) : p = q := by
  obtain ⟨a, c, rfl, h3, h4⟩ := h1
  obtain ⟨a', c', h5, h6, h7⟩ := h2
  rw [List.append_eq_append_iff] at h5
  rcases h5 with ⟨d, rfl, h5⟩ | ⟨d, rfl, h5⟩
  · cases d with
    | nil => simp at h5; exact h5.1
    | cons x xs =>
      simp only [List.cons_append, List.cons.injEq] at h5
      exact absurd h4 (by rw [h5.1]; exact h6 x (by simp))
  · cases d with
    | nil => simp at h5; exact h5.1.symm
    | cons x xs =>
      simp only [List.cons_append, List.cons.injEq] at h5
      exact absurd h7 (by rw [h5.1]; exact h3 x (by simp))

theorem NoneNamed.not_first {ps : List Param} {name : Str} (h : NoneNamed ps name) {p : Param} :
    ¬ FirstNamed ps name p := by
  rintro ⟨a, c, rfl, _, h2⟩
  exact h p (by simp) h2

/-- The value of the parameter, if it is there and has one. -/
def ParamValue (ps : List Param) (name : Str) (v : Str) : Prop :=
  ∃ p, FirstNamed ps name p ∧ p.gvalue = some v

theorem paramValue_iff {ps : List Param} {n : String} (hn : n.toList.map toLowerC = n.toList)
    {v : Str} : ParamValue ps n.toList v ↔ (paramByName ps n).bind (·.gvalue) = some v := by
  unfold ParamValue
  rw [Option.bind_eq_some_iff]
  constructor
  · rintro ⟨p, h1, h2⟩; exact ⟨p, (paramByName_some hn).2 h1, h2⟩
  · rintro ⟨p, h1, h2⟩; exact ⟨p, (paramByName_some hn).1 h1, h2⟩

/-! ## Decimal numbers -/

theorem digitVal_digitChar {d : Nat} (h : d < 10) : digitVal (Nat.digitChar d) = some d := by
  have : d = 0 ∨ d = 1 ∨ d = 2 ∨ d = 3 ∨ d = 4 ∨ d = 5 ∨ d = 6 ∨ d = 7 ∨ d = 8 ∨ d = 9 := by omega
  rcases this with rfl | rfl | rfl | rfl | rfl | rfl | rfl | rfl | rfl | rfl <;> decide

theorem digits_append (acc : Nat) (a b : Str) (h : ∀ c ∈ a, (digitVal c).isSome = true) :
    digits acc (a ++ b) = digits (digits acc a) b := by
  induction a generalizing acc with
  | nil => rfl
  | cons c cs ih =>
    obtain ⟨d, hd⟩ := Option.isSome_iff_exists.1 (h c (by simp))
    simp only [List.cons_append, digits, hd]
    exact ih _ (fun x hx => h x (by simp [hx]))

theorem toDigits_isDigit (n : Nat) : ∀ c ∈ Nat.toDigits 10 n, (digitVal c).isSome = true := by
  induction n using Nat.strongRecOn with
  | ind n ih =>
    by_cases h : n < 10
    · rw [Nat.toDigits_of_lt_base h]
      simp [digitVal_digitChar h]
    · rw [Nat.toDigits_of_base_le (by omega) (by omega)]
      intro c hc
      rcases List.mem_append.1 hc with hc | hc
      · exact ih (n / 10) (by omega) c hc
      · simp only [List.mem_singleton] at hc
        subst hc
        rw [digitVal_digitChar (by omega)]
        rfl

theorem digits_toDigits (n : Nat) : digits 0 (Nat.toDigits 10 n) = n := by
  induction n using Nat.strongRecOn with
  | ind n ih =>
    by_cases h : n < 10
    · rw [Nat.toDigits_of_lt_base h]
      simp [digits, digitVal_digitChar h]
    · rw [Nat.toDigits_of_base_le (by omega) (by omega), digits_append _ _ _ (toDigits_isDigit _),
        ih (n / 10) (by omega)]
      simp only [digits, digitVal_digitChar (show n % 10 < 10 by omega)]
      omega

theorem digit_not_space {c : Char} (h : (digitVal c).isSome = true) :
    isSpaceC c = false ∧ c ≠ '-' ∧ c ≠ '+' := by
  unfold digitVal at h
  split at h
  · next hc =>
    have h1 : 48 ≤ c.toNat := hc.1
    refine ⟨?_, ?_, ?_⟩
    · simp only [isSpaceC, Bool.or_eq_false_iff, beq_eq_false_iff_ne]
      refine ⟨⟨⟨⟨⟨?_, ?_⟩, ?_⟩, ?_⟩, ?_⟩, ?_⟩ <;> rintro rfl <;> revert h1 <;> decide
    · rintro rfl; revert h1; decide
    · rintro rfl; revert h1; decide
  · cases h

/-- `osip_atoi` of the decimal digits of a number is the number, if it fits an `int`. -/
theorem atoi_toDigits {n : Nat} (h : n < 2^31) :
    osip_atoi (some (Nat.toDigits 10 n)) = n := by
  have hd := toDigits_isDigit n
  have hv := digits_toDigits n
  unfold osip_atoi strtol
  simp only
  have hne : Nat.toDigits 10 n ≠ [] := by
    intro h0
    have hl := @Nat.length_toDigits_pos 10 n
    rw [h0] at hl
    simp at hl
  cases hs : Nat.toDigits 10 n with
  | nil => exact absurd hs hne
  | cons c cs =>
    rw [hs] at hd hv
    obtain ⟨h1, h2, h3⟩ := digit_not_space (hd c (by simp))
    have hdw : (c :: cs).dropWhile isSpaceC = c :: cs := by simp [h1]
    simp only [hdw]
    split
    · next heq => simp only [List.cons.injEq] at heq; exact absurd heq.1 h2
    · next heq => simp only [List.cons.injEq] at heq; exact absurd heq.1 h3
    · next heq =>
      rw [hv]
      unfold toInt32
      split
      · omega
      split
      · omega
      · omega

end Osip
