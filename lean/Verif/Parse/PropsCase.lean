import Verif.Parse.Case

/-!
# C57, C68: case-insensitive comparison and search

Strings are compared with the library's ASCII lower-casing `Char.toLower`.
-/

set_option autoImplicit false

namespace Osip

/-- The string with ASCII letters in lower case. -/
def lower (s : Str) : Str := s.map Char.toLower

theorem ctolower_eq (c : Char) : ctolower c = (c.toLower.toNat : Int) := by
  have hle : ∀ a b : Char, a ≤ b ↔ a.toNat ≤ b.toNat := fun a b => Iff.rfl
  have e1 : 'A'.toNat = 65 := rfl
  have e2 : 'Z'.toNat = 90 := rfl
  by_cases h : 'A' ≤ c ∧ c ≤ 'Z'
  · have h1 : c.toLower.val = c.val + ('a'.val - 'A'.val) := by
      simp only [Char.toLower]
      exact congrArg Char.val (dif_pos (c := c.val ≥ 'A'.val ∧ c.val ≤ 'Z'.val) h)
    have h2 : c.toLower.toNat = c.toNat + 32 := by
      show c.toLower.val.toNat = c.val.toNat + 32
      rw [h1, UInt32.toNat_add]
      have : ('a'.val - 'A'.val).toNat = 32 := by decide
      rw [this]
      have : c.val.toNat ≤ 90 := h.2
      omega
    simp only [ctolower, if_pos h, h2]; omega
  · have h1 : c.toLower = c := by
      simp only [Char.toLower]
      exact dif_neg (c := c.val ≥ 'A'.val ∧ c.val ≤ 'Z'.val) h
    simp only [ctolower, if_neg h, h1]

theorem ctolower_inj (c d : Char) : ctolower c = ctolower d ↔ c.toLower = d.toLower := by
  rw [ctolower_eq, ctolower_eq]
  constructor
  · intro h
    exact Char.toNat_inj.1 (by omega)
  · intro h; rw [h]

theorem ctolower_nul (c : Char) : ctolower c = ctolower NUL ↔ c = NUL := by
  constructor
  · intro h
    have e : ctolower NUL = 0 := by decide
    rw [e] at h
    have : c.toNat = 0 := by
      simp only [ctolower] at h
      split at h <;> omega
    exact Char.toNat_inj.1 this
  · rintro rfl; rfl

/-- **C57**. For all strings, with any bytes after their terminators, `osip_strcasecmp` reads no
further than the terminators and is 0 exactly if the lower-cased strings are equal. -/
theorem c57_strcasecmp {s t : Str} (hs : s.Ok) (ht : t.Ok) (q r : List Char) :
    ∃ k, osip_strcasecmp (s ++ NUL :: q) (t ++ NUL :: r) = some k ∧ (k = 0 ↔ lower s = lower t) := by
  induction s generalizing t with
  | nil =>
    cases t with
    | nil => exact ⟨0, by simp [osip_strcasecmp], by simp [lower]⟩
    | cons d t =>
      refine ⟨ctolower NUL - ctolower d, by simp [osip_strcasecmp], ?_⟩
      have : d ≠ NUL := by intro h; apply ht; simp [h]
      have h2 : ctolower NUL ≠ ctolower d := fun h => this ((ctolower_nul d).1 h.symm)
      simp only [lower, List.map_nil, List.map_cons]
      constructor
      · intro h; omega
      · intro h; simp at h
  | cons c s ih =>
    have hc : c ≠ NUL := by intro h; apply hs; simp [h]
    have hs' : Str.Ok s := by intro h; apply hs; simp [h]
    cases t with
    | nil =>
      have h2 : ctolower c ≠ ctolower NUL := fun h => hc ((ctolower_nul c).1 h)
      refine ⟨ctolower c - ctolower NUL, by simp [osip_strcasecmp, h2], ?_⟩
      simp only [lower, List.map_nil, List.map_cons]
      constructor
      · intro h; omega
      · intro h; simp at h
    | cons d t =>
      have ht' : Str.Ok t := by intro h; apply ht; simp [h]
      by_cases h : ctolower c = ctolower d
      · obtain ⟨k, h1, h2⟩ := ih hs' ht'
        refine ⟨k, by simp only [List.cons_append, osip_strcasecmp, if_pos (And.intro hc h), h1], ?_⟩
        rw [h2]
        simp [lower, (ctolower_inj c d).1 h]
      · refine ⟨ctolower c - ctolower d, by simp [osip_strcasecmp, h], ?_⟩
        constructor
        · intro h2; omega
        · intro h2
          simp only [lower, List.map_cons, List.cons.injEq] at h2
          exact absurd ((ctolower_inj c d).2 h2.1) h

theorem strncasecmpLoop_spec {s t : Str} (hs : s.Ok) (ht : t.Ok) (q r : List Char) {n : Nat} (hn : 0 < n) :
    ∃ k, strncasecmpLoop n (s ++ NUL :: q) (t ++ NUL :: r) = some k ∧
      (k = 0 ↔ lower (s.take n) = lower (t.take n)) := by
  induction s generalizing t n with
  | nil =>
    obtain ⟨n, rfl⟩ : ∃ m, n = m + 1 := ⟨n - 1, by omega⟩
    cases t with
    | nil => exact ⟨0, by simp [strncasecmpLoop], by simp [lower]⟩
    | cons d t =>
      have : d ≠ NUL := by intro h; apply ht; simp [h]
      have h2 : ctolower NUL ≠ ctolower d := fun h => this ((ctolower_nul d).1 h.symm)
      refine ⟨ctolower NUL - ctolower d, by simp [strncasecmpLoop, h2], ?_⟩
      simp only [lower, List.map_nil, List.map_cons, List.take_nil, List.take_succ_cons]
      constructor
      · intro h; omega
      · intro h; simp at h
  | cons c s ih =>
    obtain ⟨n, rfl⟩ : ∃ m, n = m + 1 := ⟨n - 1, by omega⟩
    have hc : c ≠ NUL := by intro h; apply hs; simp [h]
    have hs' : Str.Ok s := by intro h; apply hs; simp [h]
    cases t with
    | nil =>
      have h2 : ctolower c ≠ ctolower NUL := fun h => hc ((ctolower_nul c).1 h)
      refine ⟨ctolower c - ctolower NUL, by simp [strncasecmpLoop, h2], ?_⟩
      simp only [lower, List.map_nil, List.map_cons, List.take_nil, List.take_succ_cons]
      constructor
      · intro h; omega
      · intro h; simp at h
    | cons d t =>
      have hd : d ≠ NUL := by intro h; apply ht; simp [h]
      have ht' : Str.Ok t := by intro h; apply ht; simp [h]
      by_cases h : ctolower c = ctolower d
      · by_cases hn : n = 0
        · subst hn
          refine ⟨ctolower c - ctolower d, by simp [strncasecmpLoop, h], ?_⟩
          simp only [lower, List.take_succ_cons, List.take_zero, List.map_cons, (ctolower_inj c d).1 h]
          simp; omega
        · obtain ⟨k, h1, h2⟩ := ih hs' ht' (n := n) (by omega)
          refine ⟨k, ?_, ?_⟩
          · simp only [List.cons_append, strncasecmpLoop, if_pos h, hn, hc, hd, or_self, if_false, h1]
          · rw [h2]
            simp [lower, (ctolower_inj c d).1 h]
      · refine ⟨ctolower c - ctolower d, by simp [strncasecmpLoop, h], ?_⟩
        constructor
        · intro h2; omega
        · intro h2
          simp only [lower, List.take_succ_cons, List.map_cons, List.cons.injEq] at h2
          exact absurd ((ctolower_inj c d).2 h2.1) h

/-- **C57**. `osip_strncasecmp` is 0 exactly if the first `n` characters are equal after lower-casing. -/
theorem c57_strncasecmp {s t : Str} (hs : s.Ok) (ht : t.Ok) (q r : List Char) (n : Nat) :
    ∃ k, osip_strncasecmp (s ++ NUL :: q) (t ++ NUL :: r) n = some k ∧
      (k = 0 ↔ lower (s.take n) = lower (t.take n)) := by
  unfold osip_strncasecmp
  by_cases hn : n = 0
  · subst hn; exact ⟨0, by simp, by simp⟩
  · rw [if_neg hn]; exact strncasecmpLoop_spec hs ht q r (by omega)

/-- **C57**. `osip_tolower` lower-cases the string in place and touches nothing behind it. -/
theorem c57_tolower {s : Str} (hs : s.Ok) (r : List Char) :
    osip_tolower (s ++ NUL :: r) = some (lower s ++ NUL :: r) := by
  induction s with
  | nil => simp [osip_tolower, lower]
  | cons c s ih =>
    have hc : c ≠ NUL := by intro h; apply hs; simp [h]
    have hs' : Str.Ok s := by intro h; apply hs; simp [h]
    simp only [List.cons_append, osip_tolower, if_neg hc, ih hs', Option.bind_eq_bind, Option.bind_some,
      ctolower_eq, Int.toNat_natCast, Char.ofNat_toNat, lower, List.map_cons]
    rfl

/-! ## Search -/

/-- `needle` occurs in `s` at position `i`, letters compared without case. -/
def OccursAt (s needle : Str) (i : Nat) : Prop := i ≤ s.length ∧ lower needle <+: lower (s.drop i)

theorem prefix_iff_take {α : Type} {a b : List α} : a <+: b ↔ b.take a.length = a := by
  rw [List.prefix_iff_eq_take]
  exact ⟨Eq.symm, Eq.symm⟩

theorem strcasestrLoop_spec {c : Char} {needle : Str} (hc : c ≠ NUL) (hn : needle.Ok) (r : List Char) {s : Str}
    (hs : s.Ok) (q : List Char) :
    (∃ i, OccursAt s (c :: needle) i ∧ (∀ j < i, ¬ OccursAt s (c :: needle) j) ∧
      strcasestrLoop (ctolower c) (needle ++ NUL :: r) needle.length (s ++ NUL :: q) = some (some ((s ++ NUL :: q).drop i))) ∨
    ((∀ i, ¬ OccursAt s (c :: needle) i) ∧
      strcasestrLoop (ctolower c) (needle ++ NUL :: r) needle.length (s ++ NUL :: q) = some none) := by
  induction s with
  | nil =>
    right
    refine ⟨?_, by simp [strcasestrLoop]⟩
    rintro i ⟨_, h⟩
    have := h.length_le
    simp [lower] at this
  | cons d s ih =>
    have hd : d ≠ NUL := by intro h; apply hs; simp [h]
    have hs' : Str.Ok s := by intro h; apply hs; simp [h]
    have ih := ih hs'
    obtain ⟨k, h1, h2⟩ := c57_strncasecmp hs' hn q r needle.length
    have hocc0 : OccursAt (d :: s) (c :: needle) 0 ↔ ctolower d = ctolower c ∧ k = 0 := by
      rw [h2, ctolower_inj]
      simp only [OccursAt, List.drop_zero, Nat.zero_le, true_and, lower, List.map_cons]
      rw [List.cons_prefix_cons, prefix_iff_take]
      simp only [List.length_map, List.take_length, List.map_take]
      constructor
      · rintro ⟨h, h'⟩; exact ⟨h.symm, h'⟩
      · rintro ⟨h, h'⟩; exact ⟨h.symm, h'⟩
    have hoccS : ∀ i, OccursAt (d :: s) (c :: needle) (i + 1) ↔ OccursAt s (c :: needle) i := by
      intro i
      simp [OccursAt]
    by_cases h0 : OccursAt (d :: s) (c :: needle) 0
    · left
      refine ⟨0, h0, by simp, ?_⟩
      have h := hocc0.1 h0
      have h1' := h1
      rw [h.2] at h1'
      simp only [List.cons_append, strcasestrLoop, if_neg hd, h.1, ne_eq, not_true, if_false, h1',
        Option.bind_eq_bind, Option.bind_some, List.drop_zero]
    · have hstep : strcasestrLoop (ctolower c) (needle ++ NUL :: r) needle.length (d :: s ++ NUL :: q) =
          strcasestrLoop (ctolower c) (needle ++ NUL :: r) needle.length (s ++ NUL :: q) := by
        by_cases hdc : ctolower d = ctolower c
        · have : k ≠ 0 := fun hk => h0 (hocc0.2 ⟨hdc, hk⟩)
          simp only [List.cons_append, strcasestrLoop, if_neg hd, hdc, ne_eq, not_true, if_false, h1,
            Option.bind_eq_bind, Option.bind_some, this, not_false_eq_true, if_true]
        · simp only [List.cons_append, strcasestrLoop, if_neg hd, ne_eq, hdc, not_false_eq_true, if_true]
      rw [hstep]
      rcases ih with ⟨i, g1, g2, g3⟩ | ⟨g1, g2⟩
      · left
        refine ⟨i + 1, (hoccS i).2 g1, ?_, by rw [g3]; simp⟩
        intro j hj
        cases j with
        | zero => exact h0
        | succ j => rw [hoccS]; exact g2 j (by omega)
      · right
        refine ⟨?_, g2⟩
        intro i
        cases i with
        | zero => exact h0
        | succ i => rw [hoccS]; exact g1 i

/-- **C68**. For all strings `osip_strcasestr` finds the first occurrence of the needle, compared
without case, and returns `NULL` exactly if there is none; it reads neither string past its end. -/
theorem c68_strcasestr {s needle : Str} (hs : s.Ok) (hn : needle.Ok) (q r : List Char) :
    (∃ i, OccursAt s needle i ∧ (∀ j < i, ¬ OccursAt s needle j) ∧
      osip_strcasestr (s ++ NUL :: q) (needle ++ NUL :: r) = some (some ((s ++ NUL :: q).drop i))) ∨
    ((∀ i, ¬ OccursAt s needle i) ∧
      osip_strcasestr (s ++ NUL :: q) (needle ++ NUL :: r) = some none) := by
  cases needle with
  | nil =>
    left
    exact ⟨0, ⟨Nat.zero_le _, by simp [lower]⟩, by simp, by simp [osip_strcasestr]⟩
  | cons c needle =>
    have hc : c ≠ NUL := by intro h; apply hn; simp [h]
    have hn' : Str.Ok needle := by intro h; apply hn; simp [h]
    have hl := strlen_at [] hn' r (i := 0) rfl
    simp only [List.nil_append] at hl
    simp only [osip_strcasestr, List.cons_append, if_neg hc, hl, Option.bind_eq_bind, Option.bind_some]
    exact strcasestrLoop_spec hc hn' r hs q

/-! ## Examples -/

example : osip_strcasecmp (Str.buf "Call-ID".toList) (Str.buf "cALL-id".toList) = some 0 := by decide +kernel
example : osip_strcasecmp (Str.buf "Call".toList) (Str.buf "Call-ID".toList) = some (-45) := by decide +kernel
example : osip_strncasecmp (Str.buf "SIPS:x".toList) (Str.buf "sip:".toList) 3 = some 0 := by decide +kernel
example : osip_tolower (Str.buf "Via-[Z]".toList) = some (Str.buf "via-[z]".toList) := by decide +kernel
example : osip_strcasestr (Str.buf "a;LR=on".toList) (Str.buf "lr".toList) = some (some (Str.buf "LR=on".toList)) := by
  decide +kernel
example : osip_strcasestr (Str.buf "a;LL".toList) (Str.buf "lr".toList) = some none := by decide +kernel

end Osip
