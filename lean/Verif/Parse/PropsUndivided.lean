import Verif.Parse.PropsMulti

/-!
# Values which are not divided at their commas

`divides` says whether a text of any form is divided, `split_undivided` that the loop agrees, and `split_pieces` that what was divided once
is not divided again.
-/

set_option autoImplicit false

namespace Osip

/-! ## Specification -/

/-- The text begins with a scheme which is recognised. -/
def startsUri (s : Str) : Bool := schemes.any fun sc => decide (lower sc.toList <+: lower s)

/-- There is a comma outside of quotes and of URIs in angle brackets. The flags say whether the text begins inside of them. -/
def divides : Bool → Bool → Str → Bool
  | _, _, [] => false
  | q, u, c :: t =>
    if c = '"' then divides (!q) u t
    else if q then divides q u t
    else if c = '<' ∧ u = false then divides q (startsUri t && decide ('>' ∈ t)) t
    else if c = '>' then divides q false t
    else if c = ',' ∧ u = false then true
    else divides q u t

/-- The value of a header is not divided. -/
def Undivided (v : Str) : Prop := divides false false v = false

example : Undivided "\"a, b\" <sip:c,d@e>;x=\"open, end".toList ∧ ¬ Undivided "a, b".toList ∧ ¬ Undivided "<urn:a,b>".toList := by
  unfold Undivided; decide +kernel

/-! ## The loop -/

variable {set : List Str → Str → Int}

theorem opensUri_spec {s : Str} (hs : s.Ok) (r : List Char) : opensUri ('<' :: (s ++ NUL :: r)) = some (startsUri s && decide ('>' ∈ s)) := by
  obtain ⟨b1, h1, g1⟩ := caseStarts_spec hs r (lit := "sip:") (by decide)
  obtain ⟨b2, h2, g2⟩ := caseStarts_spec hs r (lit := "sips:") (by decide)
  obtain ⟨b3, h3, g3⟩ := caseStarts_spec hs r (lit := "http:") (by decide)
  obtain ⟨b4, h4, g4⟩ := caseStarts_spec hs r (lit := "https:") (by decide)
  obtain ⟨b5, h5, g5⟩ := caseStarts_spec hs r (lit := "tel:") (by decide)
  have hst : startsUri s = (b1 || b2 || b3 || b4 || b5) := by
    rw [Bool.eq_iff_iff]
    simp only [startsUri, schemes, List.any_cons, List.any_nil, Bool.or_eq_true, decide_eq_true_eq, g1, g2, g3, g4, g5, Bool.or_false]
    grind
  have hx : ∃ x, cstrchr '>' ('<' :: (s ++ NUL :: r)) = some x ∧ x.isSome = decide ('>' ∈ s) := by
    have hok' : Str.Ok ('<' :: s) := ok_cons.2 ⟨by decide, hs⟩
    rcases cstrchr_cases hok' (c := '>') (by decide) r with ⟨hn, h⟩ | ⟨a, b, e, _, h⟩
    · refine ⟨_, h, ?_⟩
      have : '>' ∉ s := fun k => hn (by simp [k])
      simp [this]
    · refine ⟨_, h, ?_⟩
      have : '>' ∈ '<' :: s := by rw [e]; simp
      have : '>' ∈ s := by
        rcases List.mem_cons.1 this with h | h
        · exact absurd h (by decide)
        · exact h
      simp [this]
  obtain ⟨x, hx, hx2⟩ := hx
  rw [hst]
  simp only [opensUri, List.drop_succ_cons, List.drop_zero, h1, h2, h3, h4, h5, hx, Option.bind_eq_bind, Option.bind_some]
  cases b1 <;> cases b2 <;> cases b3 <;> cases b4 <;> cases b5 <;> simp [hx2]

/-- One character which does not divide. -/
theorem split_char {c : Char} (hc : c ≠ NUL) {s : Str} (hs : s.Ok) (beg r : List Char) (q u : Bool) (acc : List Str)
    (h : ¬ (c = ',' ∧ q = false ∧ u = false)) :
    ∃ q' u', splitLoop set beg (c :: (s ++ NUL :: r)) q u acc = splitLoop set beg (s ++ NUL :: r) q' u' acc ∧
      divides q u (c :: s) = divides q' u' s ∧
      (q', u') = (if c = '"' then (!q, u) else if q then (q, u) else if c = '<' ∧ u = false then (q, startsUri s && decide ('>' ∈ s))
        else if c = '>' then (q, false) else (q, u)) := by
  by_cases h1 : c = '"'
  · subst h1
    exact ⟨!q, u, split_quote _ _ _ _ _, by simp [divides], by simp⟩
  by_cases h2 : c = '<'
  · subst h2
    cases q
    · cases u
      · refine ⟨false, startsUri s && decide ('>' ∈ s), ?_, ?_, by simp⟩
        · rw [splitLoop]
          simp [opensUri_spec hs r]
        · simp [divides]
      · exact ⟨false, true, by rw [splitLoop]; simp, by simp [divides], by simp⟩
    · exact ⟨true, u, by rw [splitLoop]; simp, by simp [divides], by simp⟩
  by_cases h3 : c = '>'
  · subst h3
    cases q
    · exact ⟨false, false, by rw [splitLoop]; simp, by simp [divides], by simp⟩
    · exact ⟨true, u, by rw [splitLoop]; simp, by simp [divides], by simp⟩
  by_cases h4 : c = ','
  · subst h4
    cases q
    · cases u
      · simp at h
      · exact ⟨false, true, by rw [splitLoop]; simp [NUL], by simp [divides], by simp⟩
    · exact ⟨true, u, by rw [splitLoop]; simp [NUL], by simp [divides], by simp⟩
  · refine ⟨q, u, by rw [splitLoop]; simp [h1, h2, h3, h4, hc], ?_, by simp [h1, h2, h3]⟩
    cases q <;> simp [divides, h1, h2, h3, h4]

theorem split_nul (beg r : List Char) (q u : Bool) (acc : List Str) :
    splitLoop set beg (NUL :: r) q u acc = splitLoop set beg (NUL :: r) false false acc := by
  have h1 : NUL ≠ '"' := by decide
  have h2 : NUL ≠ '<' := by decide
  have h3 : NUL ≠ '>' := by decide
  conv => lhs; rw [splitLoop]
  conv => rhs; rw [splitLoop]
  simp [h1, h2, h3]

/-- An undivided text is walked through to its end. -/
theorem split_through (s : Str) : ∀ {q u : Bool} (beg r : List Char) (acc : List Str), s.Ok → divides q u s = false →
    splitLoop set beg (s ++ NUL :: r) q u acc = splitLoop set beg (NUL :: r) false false acc := by
  induction s with
  | nil => intro q u beg r acc _ _; exact split_nul _ _ _ _ _
  | cons c s ih =>
    intro q u beg r acc hok hd
    obtain ⟨hc, hs⟩ := ok_cons.1 hok
    have h : ¬ (c = ',' ∧ q = false ∧ u = false) := by
      rintro ⟨rfl, rfl, rfl⟩
      simp [divides] at hd
    obtain ⟨q', u', e1, e2, -⟩ := split_char (set := set) hc hs beg r q u acc h
    rw [List.cons_append, e1]
    exact ih beg r acc hs (by rw [← e2]; exact hd)

/-- An undivided value is stored in one piece. -/
theorem split_undivided {v : Str} (hok : v.Ok) (hd : Undivided v) (r : List Char) (acc : List Str) :
    splitLoop set (v ++ NUL :: r) (v ++ NUL :: r) false false acc = some (storeAll set acc (([v].filter (· ≠ [])).map trim)) := by
  rw [split_through v _ r acc hok hd, split_end hok]

/-! ## What was divided once -/

theorem starts_cut {s z : Str} (hz : z <+: s) (hg : '>' ∈ z) : startsUri z = startsUri s := by
  obtain ⟨y, rfl⟩ := hz
  rw [Bool.eq_iff_iff]
  simp only [startsUri, List.any_eq_true, decide_eq_true_eq]
  have key : ∀ sc ∈ schemes, lower sc.toList <+: lower (z ++ y) ↔ lower sc.toList <+: lower z := by
    intro sc hsc
    have hno : '>' ∉ lower sc.toList := by
      revert sc; decide +kernel
    have e : lower (z ++ y) = lower z ++ lower y := List.map_append
    have hg' : '>' ∈ lower z := List.mem_map.2 ⟨_, hg, rfl⟩
    rw [e]
    refine ⟨fun h => ?_, fun h => h.trans (List.prefix_append _ _)⟩
    rcases List.prefix_or_prefix_of_prefix h (List.prefix_append (lower z) (lower y)) with k | k
    · exact k
    · exact absurd (k.subset hg') hno
  constructor
  · rintro ⟨sc, h1, h2⟩; exact ⟨sc, h1, (key sc h1).2 h2⟩
  · rintro ⟨sc, h1, h2⟩; exact ⟨sc, h1, (key sc h1).1 h2⟩

theorem starts_longer {s z : Str} (hz : z <+: s) (h : startsUri z = true) : startsUri s = true := by
  simp only [startsUri, List.any_eq_true, decide_eq_true_eq] at h ⊢
  obtain ⟨sc, h1, h2⟩ := h
  exact ⟨sc, h1, h2.trans (hz.map _)⟩

theorem starts_blank {c : Char} (hc : isBlank c = true) (s : Str) : startsUri (s ++ [c]) = startsUri s := by
  rw [Bool.eq_iff_iff]
  refine ⟨fun h => ?_, starts_longer (List.prefix_append _ _)⟩
  simp only [startsUri, List.any_eq_true, decide_eq_true_eq] at h ⊢
  obtain ⟨sc, h1, h2⟩ := h
  refine ⟨sc, h1, ?_⟩
  have e : lower (s ++ [c]) = lower s ++ [c.toLower] := by simp [lower]
  rw [e, List.prefix_concat_iff] at h2
  rcases h2 with h2 | h2
  · have k : c.toLower ∈ lower sc.toList := by rw [h2]; simp
    have hl : ∀ d ∈ [' ', '\t', '\r', '\n'], ∀ sc ∈ schemes, d.toLower ∉ lower sc.toList := by decide +kernel
    exact absurd k (hl c (by simp [isBlank] at hc ⊢; grind) sc h1)
  · exact h2

theorem divides_blank {c : Char} (hc : isBlank c = true) (s : Str) : ∀ q u, divides q u (s ++ [c]) = divides q u s := by
  have hs : c ≠ '"' ∧ c ≠ '<' ∧ c ≠ '>' ∧ c ≠ ',' := by
    simp [isBlank] at hc; grind
  induction s with
  | nil => intro q u; cases q <;> simp [divides, hs]
  | cons d s ih =>
    intro q u
    have hg : decide ('>' ∈ s ++ [c]) = decide ('>' ∈ s) := by simp [Ne.symm hs.2.2.1]
    simp only [List.cons_append, divides, ih, starts_blank hc, hg]

theorem undivided_trim {s : Str} (h : Undivided s) : Undivided (trim s) := by
  have h1 : ∀ s : Str, Undivided s → Undivided (s.dropWhile isBlank) := by
    intro s
    induction s with
    | nil => exact id
    | cons c s ih =>
      intro h
      rw [List.dropWhile_cons]
      split
      · rename_i hc
        have hs : c ≠ '"' ∧ c ≠ '<' ∧ c ≠ '>' ∧ c ≠ ',' := by
          simp [isBlank] at hc; grind
        exact ih (by simpa [Undivided, divides, hs] using h)
      · exact h
  have h2 : ∀ y : Str, Undivided y.reverse → Undivided (y.dropWhile isBlank).reverse := by
    intro y
    induction y with
    | nil => exact id
    | cons c y ih =>
      intro h
      rw [List.dropWhile_cons]
      split
      · rename_i hc
        rw [List.reverse_cons, Undivided, divides_blank hc] at h
        exact ih h
      · exact h
  rw [trim_eq]
  exact h2 _ (by rw [List.reverse_reverse]; exact h1 _ h)

/-- The state of the loop behind `a` is that of a text which begins with `a` and goes on as a beginning of `s`; if a URI is open, it must be
closed there, or go on to the end. -/
def Scanned (a s : Str) (q u : Bool) : Prop :=
  ∀ z, z <+: s → (z = s ∨ u = false ∨ '>' ∈ z) → divides false false (a ++ z) = divides q u z

theorem scanned_start (s : Str) : Scanned [] s false false := fun _ _ _ => rfl

theorem scanned_char {a s : Str} {c : Char} {q u q' u' : Bool} (h : Scanned a (c :: s) q u) (hn : ¬ (c = ',' ∧ q = false ∧ u = false))
    (hs : (q', u') = (if c = '"' then (!q, u) else if q then (q, u) else if c = '<' ∧ u = false then (q, startsUri s && decide ('>' ∈ s))
        else if c = '>' then (q, false) else (q, u))) : Scanned (a ++ [c]) s q' u' := by
  intro z hz hc
  have e : divides false false (a ++ [c] ++ z) = divides q u (c :: z) := by
    rw [List.append_assoc, List.singleton_append]
    refine h (c :: z) (List.cons_prefix_cons.2 ⟨rfl, hz⟩) ?_
    grind
  rw [e]
  by_cases h1 : c = '"'
  · subst h1
    simp at hs
    simp [divides, hs.1, hs.2]
  rw [if_neg h1] at hs
  by_cases hq : q = true
  · rw [if_pos hq] at hs
    simp at hs
    simp [divides, h1, hs.1, hs.2, hq]
  have hq : q = false := by simpa using hq
  subst hq
  rw [if_neg (by simp)] at hs
  by_cases h2 : c = '<' ∧ u = false
  · rw [if_pos h2] at hs
    simp only [Prod.mk.injEq] at hs
    obtain ⟨rfl, hs⟩ := hs
    obtain ⟨rfl, rfl⟩ := h2
    have : (startsUri z && decide ('>' ∈ z)) = u' := by
      rw [hs] at hc ⊢
      rcases hc with rfl | hc | hc
      · rfl
      · rw [hc]
        cases e1 : startsUri z with
        | false => simp
        | true =>
          have := starts_longer hz e1
          rw [this, Bool.true_and, decide_eq_false_iff_not] at hc
          simp only [Bool.true_and, decide_eq_false_iff_not]
          exact fun k => hc (hz.subset k)
      · rw [starts_cut hz hc]
        simp [hc, hz.subset hc]
    simp [divides, this]
  rw [if_neg h2] at hs
  by_cases h3 : c = '>'
  · rw [if_pos h3] at hs
    simp at hs
    subst h3
    simp [divides, hs.1, hs.2]
  rw [if_neg h3] at hs
  simp only [Prod.mk.injEq] at hs
  obtain ⟨rfl, rfl⟩ := hs
  have h4 : ¬ (c = ',' ∧ u' = false) := fun k => hn ⟨k.1, rfl, k.2⟩
  simp only [divides, if_neg h1, if_neg h2, if_neg h3, if_neg h4, Bool.false_eq_true, if_false]

/-- The values which the loop stores are not divided. -/
theorem split_pieces (s : Str) : ∀ {a : Str} {q u : Bool} {acc : List Str} {r : List Char} {i : Int} {vals : List Str}, a.Ok → s.Ok →
    Scanned a s q u → (∀ v ∈ acc, Undivided v) →
    splitLoop set (a ++ (s ++ NUL :: r)) (s ++ NUL :: r) q u acc = some (i, vals) → ∀ v ∈ vals, Undivided v := by
  induction s with
  | nil =>
    intro a q u acc r i vals ha _ hsc hacc e
    have hu : Undivided (trim a) := undivided_trim (by
      have := hsc [] (List.prefix_refl _) (.inl rfl)
      rw [List.append_nil] at this
      rw [Undivided, this, divides])
    rw [List.nil_append, split_nul, split_end ha] at e
    simp only [Option.some.injEq] at e
    by_cases h0 : a = []
    · simp [h0, storeAll] at e
      rw [← e.2]; exact hacc
    · simp only [ne_eq, h0, not_false_eq_true, decide_true, List.filter_cons_of_pos, List.filter_nil, List.map_cons, List.map_nil, storeAll] at e
      have : vals = trim a :: acc := by
        split at e <;> simp at e <;> exact e.2.symm
      intro v hv
      rw [this] at hv
      rcases List.mem_cons.1 hv with rfl | hv
      · exact hu
      · exact hacc v hv
  | cons c s ih =>
    intro a q u acc r i vals ha hs hsc hacc e
    obtain ⟨hc, hs'⟩ := ok_cons.1 hs
    by_cases h : c = ',' ∧ q = false ∧ u = false
    · obtain ⟨rfl, rfl, rfl⟩ := h
      have hu : Undivided (trim a) := undivided_trim (by
        have := hsc [] (List.nil_prefix) (.inr (.inl rfl))
        rw [List.append_nil] at this
        rw [Undivided, this, divides])
      rw [split_comma ha hs'] at e
      have hacc' : ∀ v ∈ trim a :: acc, Undivided v := by
        intro v hv
        rcases List.mem_cons.1 hv with rfl | hv
        · exact hu
        · exact hacc v hv
      split at e
      · exact ih (a := []) (by simp [Str.Ok]) hs' (scanned_start _) hacc e
      · split at e
        · cases e; exact hacc'
        · exact ih (a := []) (by simp [Str.Ok]) hs' (scanned_start _) hacc' e
    · obtain ⟨q', u', e1, -, e3⟩ := split_char (set := set) hc hs' (a ++ (c :: s ++ NUL :: r)) r q u acc h
      rw [List.cons_append] at e e1
      rw [e1] at e
      have hb : a ++ c :: (s ++ NUL :: r) = (a ++ [c]) ++ (s ++ NUL :: r) := by simp
      rw [hb] at e
      exact ih (ok_append ha (ok_cons.2 ⟨hc, by simp [Str.Ok]⟩)) hs' (scanned_char hsc h e3) hacc e

theorem divides_noComma {v : Str} (h : ',' ∉ v) : ∀ q u, divides q u v = false := by
  induction v with
  | nil => intro q u; rfl
  | cons c v ih =>
    have hc : c ≠ ',' := by rintro rfl; exact h (by simp)
    have ih := ih (fun k => h (by simp [k]))
    intro q u
    simp [divides, hc, ih]

theorem undivided_noComma {v : Str} (h : ',' ∉ v) : Undivided v := divides_noComma h _ _

/-! ## Elements -/

theorem divides_quoted {p : Str} (hp : '"' ∉ p) (t : Str) : divides true false (p ++ t) = divides true false t := by
  induction p with
  | nil => rfl
  | cons c p ih =>
    have hc : c ≠ '"' := by rintro rfl; exact hp (by simp)
    rw [List.cons_append, divides]
    simp [hc, ih (fun h => hp (by simp [h]))]

theorem divides_uri {p : Str} (hq : '"' ∉ p) (hg : '>' ∉ p) (t : Str) : divides false true (p ++ t) = divides false true t := by
  induction p with
  | nil => rfl
  | cons c p ih =>
    have hc : c ≠ '"' := by rintro rfl; exact hq (by simp)
    have hc' : c ≠ '>' := by rintro rfl; exact hg (by simp)
    rw [List.cons_append, divides]
    simp [hc, hc', ih (fun h => hq (by simp [h])) (fun h => hg (by simp [h]))]

theorem undivided_element {v : Str} (h : Element v) : Undivided v := by
  unfold Undivided
  induction h with
  | nil => rfl
  | @cons p e hp _ ih =>
    cases hp with
    | char h1 h2 h3 h4 => simpa [divides, h1, h2, h3, h4] using ih
    | @quoted q hq =>
      simp only [List.cons_append, List.append_assoc, List.nil_append]
      rw [divides]
      simp only [if_true, Bool.not_false]
      rw [divides_quoted (quoted_no_quote hq), divides]
      simpa using ih
    | @uri u sc h1 h2 h3 h4 =>
      simp only [List.cons_append, List.append_assoc, List.nil_append]
      have : (startsUri (u ++ '>' :: e) && decide ('>' ∈ u ++ '>' :: e)) = true := by
        have : startsUri u = true := by
          simp only [startsUri, List.any_eq_true, decide_eq_true_eq]
          exact ⟨sc, h1, h2⟩
        simp [starts_longer (List.prefix_append u ('>' :: e)) this]
      rw [divides]
      simp only [this]
      simp only [Char.reduceEq, if_false, Bool.false_eq_true, and_self, if_true]
      rw [divides_uri h4 h3, divides]
      simpa using ih

end Osip
