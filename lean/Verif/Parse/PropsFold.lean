import Verif.Parse.Lines

/-!
# C45: unfolding of continuation lines
-/

set_option autoImplicit false

namespace Osip

/-! ## Specification -/

def IsBlank (c : Char) : Prop := c = ' ' ∨ c = '\t'

/-- The three line ends. -/
def LineEnd (nl : Str) : Prop := nl = [CR, LF] ∨ nl = [CR] ∨ nl = [LF]

/-- A line end followed by white space, `n` characters in all, stands at position `j`. -/
def FoldAt (s : Str) (j n : Nat) : Prop :=
  ∃ nl b t, s.drop j = nl ++ b ++ t ∧ LineEnd nl ∧ b ≠ [] ∧ (∀ c ∈ b, IsBlank c) ∧ n = nl.length + b.length

/-- The end of the header part: a line end directly followed by another one. -/
def BlankLineAt (s : Str) (e : Nat) : Prop :=
  ∃ t, s.drop e = CR :: LF :: CR :: LF :: t ∨ s.drop e = CR :: CR :: t ∨ s.drop e = LF :: LF :: t

/-- Character `i` belongs to a continuation in the header part. The last three characters of the
string are not looked at. -/
def Continuation (s : Str) (i : Nat) : Prop :=
  ∃ j n, FoldAt s j n ∧ j ≤ i ∧ i < j + n ∧ j + 4 ≤ s.length ∧ ∀ e ≤ j, ¬ BlankLineAt s e

/-- No continuation line is empty: white space after a line end is followed by something which is
neither a line end nor the end of the string. -/
def NoEmptyContinuation (s : Str) : Prop :=
  ∀ j n, FoldAt s j n → ∃ c, s[j + n]? = some c ∧ c ≠ CR ∧ c ≠ LF

/-! ## Facts about the specification -/

theorem foldAt_cons (c : Char) (s : Str) (j n : Nat) : FoldAt (c :: s) (j + 1) n ↔ FoldAt s j n := by
  simp [FoldAt]

theorem blankLineAt_cons (c : Char) (s : Str) (e : Nat) : BlankLineAt (c :: s) (e + 1) ↔ BlankLineAt s e := by
  simp [BlankLineAt]

theorem noEmpty_tail {c : Char} {s : Str} (h : NoEmptyContinuation (c :: s)) : NoEmptyContinuation s := by
  intro j n hf
  have := h (j + 1) n ((foldAt_cons c s j n).2 hf)
  have e : j + 1 + n = (j + n) + 1 := by omega
  rw [e] at this
  simpa using this

theorem noEmpty_drop {p s : Str} (h : NoEmptyContinuation (p ++ s)) : NoEmptyContinuation s := by
  induction p with
  | nil => exact h
  | cons c p ih => exact ih (noEmpty_tail h)

theorem continuation_cons {c : Char} {s : Str} (h1 : ∀ n, ¬ FoldAt (c :: s) 0 n) (h2 : ¬ BlankLineAt (c :: s) 0)
    (i : Nat) : Continuation (c :: s) (i + 1) ↔ Continuation s i := by
  constructor
  · rintro ⟨j, n, hf, hj, hi, hl, hb⟩
    cases j with
    | zero => exact absurd hf (h1 n)
    | succ j =>
      refine ⟨j, n, (foldAt_cons _ _ _ _).1 hf, by omega, by omega, by simp at hl; omega, ?_⟩
      intro e he hbe
      exact hb (e + 1) (by omega) ((blankLineAt_cons _ _ _).2 hbe)
  · rintro ⟨j, n, hf, hj, hi, hl, hb⟩
    refine ⟨j + 1, n, (foldAt_cons _ _ _ _).2 hf, by omega, by omega, by simp; omega, ?_⟩
    intro e he hbe
    cases e with
    | zero => exact h2 hbe
    | succ e => exact hb e (by omega) ((blankLineAt_cons _ _ _).1 hbe)

theorem not_continuation_zero {c : Char} {s : Str} (h1 : ∀ n, ¬ FoldAt (c :: s) 0 n) : ¬ Continuation (c :: s) 0 := by
  rintro ⟨j, n, hf, hj, _⟩
  obtain rfl : j = 0 := by omega
  exact h1 n hf

theorem not_continuation_short {s : Str} (h : s.length < 4) (i : Nat) : ¬ Continuation s i := by
  rintro ⟨j, n, _, _, _, hl, _⟩
  omega

theorem not_continuation_blank {s : Str} (h : BlankLineAt s 0) (i : Nat) : ¬ Continuation s i := by
  rintro ⟨j, n, _, _, _, _, hb⟩
  exact hb 0 (Nat.zero_le _) h

/-- Every character of a fold is a line end or a blank. -/
theorem foldAt_chars {s : Str} {j n : Nat} (h : FoldAt s j n) {i : Nat} (h1 : j ≤ i) (h2 : i < j + n) {c : Char}
    (hc : s[i]? = some c) : c = CR ∨ c = LF ∨ IsBlank c := by
  obtain ⟨nl, b, t, e, hnl, _, hb, rfl⟩ := h
  have e2 : s[i]? = (s.drop j)[i - j]? := by
    rw [List.getElem?_drop]; congr 1; omega
  rw [e2, e, List.getElem?_append_left (by simp; omega)] at hc
  have hm : c ∈ nl ++ b := List.mem_of_getElem? hc
  rcases List.mem_append.1 hm with hm | hm
  · rcases hnl with rfl | rfl | rfl <;> simp at hm
    · rcases hm with rfl | rfl
      · exact .inl rfl
      · exact .inr (.inl rfl)
    · exact .inl hm
    · exact .inr (.inl hm)
  · exact .inr (.inr (hb c hm))

/-- Past a fold and the character after it. -/
theorem continuation_fold {nl b t : Str} {x : Char} (hnl : LineEnd nl) (hb : b ≠ []) (hbl : ∀ c ∈ b, IsBlank c)
    (hx : ¬ (x = CR ∨ x = LF ∨ IsBlank x)) (hl : 4 ≤ (nl ++ b ++ x :: t).length) (i : Nat) :
    Continuation (nl ++ b ++ x :: t) i ↔
      (i < (nl ++ b).length ∨ (nl ++ b).length < i ∧ Continuation t (i - ((nl ++ b).length + 1))) := by
  have hx1 : (nl ++ b ++ x :: t)[(nl ++ b).length]? = some x := by
    rw [List.getElem?_append_right (Nat.le_refl _)]; simp
  have hf0 : FoldAt (nl ++ b ++ x :: t) 0 (nl ++ b).length := ⟨nl, b, x :: t, by simp, hnl, hb, hbl, by simp⟩
  have hdrop : ∀ k, (nl ++ b ++ x :: t).drop ((nl ++ b).length + 1 + k) = t.drop k := by
    intro k
    have : nl ++ b ++ x :: t = (nl ++ b ++ [x]) ++ t := by simp
    rw [this]
    have e : (nl ++ b).length + 1 + k = (nl ++ b ++ [x]).length + k := by simp; omega
    rw [e, ← List.drop_drop, List.drop_left]
  -- no blank line up to the character `x`
  have hnb : ∀ e ≤ (nl ++ b).length, ¬ BlankLineAt (nl ++ b ++ x :: t) e := by
    intro e he hbe
    have hget : ∀ k c, ((nl ++ b ++ x :: t).drop e)[k]? = some c → (nl ++ b ++ x :: t)[e + k]? = some c := by
      intro k c h; rw [List.getElem?_drop] at h; exact h
    -- the two first characters of the blank line
    have hcl : ∃ c, (nl ++ b ++ x :: t)[e]? = some c ∧ (c = CR ∨ c = LF) := by
      obtain ⟨u, h | h | h⟩ := hbe <;> have := hget 0
      · exact ⟨CR, this CR (by rw [h]; rfl), .inl rfl⟩
      · exact ⟨CR, this CR (by rw [h]; rfl), .inl rfl⟩
      · exact ⟨LF, this LF (by rw [h]; rfl), .inr rfl⟩
    obtain ⟨c, hc1, hc2⟩ := hcl
    have hlt : e < nl.length := by
      rcases Nat.lt_or_ge e nl.length with h | h
      · exact h
      · exfalso
        rcases Nat.lt_or_ge e (nl ++ b).length with h' | h'
        · rw [List.getElem?_append_left h', List.getElem?_append_right h] at hc1
          have := hbl c (List.mem_of_getElem? hc1)
          rcases hc2 with rfl | rfl <;> rcases this with h | h <;> revert h <;> decide
        · obtain rfl : e = (nl ++ b).length := by omega
          rw [hx1] at hc1
          cases hc1
          rcases hc2 with rfl | rfl
          · exact hx (.inl rfl)
          · exact hx (.inr (.inl rfl))
    obtain ⟨d, b', rfl⟩ : ∃ d b', b = d :: b' := by
      cases b with
      | nil => exact absurd rfl hb
      | cons d b' => exact ⟨d, b', rfl⟩
    have hd := hbl d (by simp)
    have hdn : d ≠ CR ∧ d ≠ LF := by rcases hd with rfl | rfl <;> decide
    obtain ⟨u, hu⟩ := hbe
    rcases hnl with rfl | rfl | rfl
    · have he' : e = 0 ∨ e = 1 := by simp at hlt; omega
      rcases he' with rfl | rfl
      · simp at hu
        rcases hu with h | h | h
        · exact hdn.1 h.1
        · exact absurd h.1 (by decide)
        · exact absurd h.1 (by decide)
      · simp at hu
        rcases hu with h | h | h
        · exact absurd h.1 (by decide)
        · exact absurd h.1 (by decide)
        · exact hdn.2 h.1
    · obtain rfl : e = 0 := by simp at hlt; omega
      simp at hu
      rcases hu with h | h | h
      · exact hdn.2 h.1
      · exact hdn.1 h.1
      · exact absurd h.1 (by decide)
    · obtain rfl : e = 0 := by simp at hlt; omega
      simp at hu
      rcases hu with h | h | h
      · exact absurd h.1 (by decide)
      · exact absurd h.1 (by decide)
      · exact hdn.2 h.1
  constructor
  · rintro ⟨j, n, hf, hj, hi, hl', hbl'⟩
    by_cases h : i < (nl ++ b).length
    · exact .inl h
    · right
      have hjgt : (nl ++ b).length < j := by
        rcases Nat.lt_or_ge (nl ++ b).length j with h' | h'
        · exact h'
        · exact absurd (foldAt_chars hf h' (by omega) hx1) hx
      refine ⟨by omega, j - ((nl ++ b).length + 1), n, ?_, by omega, by omega, ?_, ?_⟩
      · obtain ⟨nl', b', t', e, h'⟩ := hf
        refine ⟨nl', b', t', ?_, h'⟩
        rw [← e, ← hdrop]; congr 1; omega
      · simp at hl' hjgt ⊢; omega
      · intro e he hbe
        obtain ⟨u, hu⟩ := hbe
        refine hbl' ((nl ++ b).length + 1 + e) (by omega) ⟨u, ?_⟩
        rw [hdrop]; exact hu
  · rintro (h | ⟨h, j, n, hf, hj, hi, hl', hbl'⟩)
    · exact ⟨0, _, hf0, Nat.zero_le _, by omega, by omega, fun e he => hnb e (by omega)⟩
    · refine ⟨(nl ++ b).length + 1 + j, n, ?_, by omega, by omega, ?_, ?_⟩
      · obtain ⟨nl', b', t', e, h'⟩ := hf
        exact ⟨nl', b', t', by rw [hdrop]; exact e, h'⟩
      · simp at hl' ⊢; omega
      · intro e he hbe
        rcases Nat.lt_or_ge (nl ++ b).length e with h' | h'
        · obtain ⟨u, hu⟩ := hbe
          refine hbl' (e - ((nl ++ b).length + 1)) (by omega) ⟨u, ?_⟩
          rw [← hdrop]
          have : (nl ++ b).length + 1 + (e - ((nl ++ b).length + 1)) = e := by omega
          rw [this]; exact hu
        · exact hnb e h' hbe

/-! ## The loop -/

theorem lwsSkip_spec {s : Str} (r : List Char) (hne : ∃ x ∈ s, ¬ IsBlank x) :
    ∃ b x t, s = b ++ x :: t ∧ (∀ c ∈ b, IsBlank c) ∧ ¬ IsBlank x ∧
      lwsSkip (s ++ r) = some (List.replicate b.length ' ', x :: t ++ r) := by
  induction s with
  | nil => simp at hne
  | cons c s ih =>
    by_cases hc : IsBlank c
    · obtain ⟨x, hx, hxb⟩ := hne
      have hx' : x ∈ s := by
        rcases List.mem_cons.1 hx with rfl | h
        · exact absurd hc hxb
        · exact h
      obtain ⟨b, y, t, rfl, h1, h2, h3⟩ := ih ⟨x, hx', hxb⟩
      refine ⟨c :: b, y, t, rfl, ?_, h2, ?_⟩
      · intro d hd
        rcases List.mem_cons.1 hd with rfl | h
        · exact hc
        · exact h1 d h
      · have : c = '\t' ∨ c = ' ' := hc.symm
        simp only [List.cons_append, lwsSkip, if_pos this]
        rw [h3]
        simp [List.replicate_succ]
    · refine ⟨[], c, s, rfl, by simp, hc, ?_⟩
      have : ¬ (c = '\t' ∨ c = ' ') := fun h => hc h.symm
      simp only [List.cons_append, lwsSkip, if_neg this, List.length_nil, List.replicate_zero]

/-- `s'` is `s` with the continuations made blank. -/
def Unfolded (s s' : Str) : Prop :=
  s'.length = s.length ∧
  ∀ i, i < s.length → (Continuation s i → s'[i]? = some ' ') ∧ (¬ Continuation s i → s'[i]? = s[i]?)

theorem unfolded_self {s : Str} (h : ∀ i, ¬ Continuation s i) : Unfolded s s :=
  ⟨rfl, fun i _ => ⟨fun hc => absurd hc (h i), fun _ => rfl⟩⟩

theorem lwsLoop_spec (m : Nat) : ∀ {s : Str} {n : Nat}, s.length ≤ m → s.length < n → s.Ok →
    NoEmptyContinuation s → ∀ r, ∃ s', lwsLoop n (s ++ NUL :: r) = some (s' ++ NUL :: r) ∧ Unfolded s s' := by
  induction m with
  | zero =>
    intro s n hm hn hs hne r
    obtain rfl : s = [] := List.length_eq_zero_iff.1 (by omega)
    obtain ⟨n, rfl⟩ : ∃ k, n = k + 1 := ⟨n - 1, by omega⟩
    exact ⟨[], by simp [lwsLoop], unfolded_self (not_continuation_short (by simp))⟩
  | succ m ih =>
    intro s n hm hn hs hne r
    obtain ⟨n, rfl⟩ : ∃ k, n = k + 1 := ⟨n - 1, by omega⟩
    match s, hm, hn, hs, hne with
    | [], _, _, _, _ => exact ⟨[], by simp [lwsLoop], unfolded_self (not_continuation_short (by simp))⟩
    | [c0], _, _, _, _ =>
      exact ⟨[c0], by by_cases h : c0 = NUL <;> simp [lwsLoop, h], unfolded_self (not_continuation_short (by simp))⟩
    | [c0, c1], _, _, _, _ =>
      refine ⟨[c0, c1], ?_, unfolded_self (not_continuation_short (by simp))⟩
      by_cases h : c0 = NUL <;> by_cases h1 : c1 = NUL <;> simp [lwsLoop, h, h1]
    | [c0, c1, c2], _, _, _, _ =>
      refine ⟨[c0, c1, c2], ?_, unfolded_self (not_continuation_short (by simp))⟩
      by_cases h : c0 = NUL <;> by_cases h1 : c1 = NUL <;> by_cases h2 : c2 = NUL <;> simp [lwsLoop, h, h1, h2]
    | c0 :: c1 :: c2 :: c3 :: t, hm, hn, hs, hne =>
      simp only [Str.Ok, List.mem_cons, not_or] at hs
      have n0 : c0 ≠ NUL := Ne.symm hs.1
      have n1 : c1 ≠ NUL := Ne.symm hs.2.1
      have n2 : c2 ≠ NUL := Ne.symm hs.2.2.1
      have n3 : c3 ≠ NUL := Ne.symm hs.2.2.2.1
      have nt : Str.Ok t := hs.2.2.2.2
      simp only [List.length_cons] at hm hn
      simp only [List.cons_append, lwsLoop, if_neg n0, if_neg n1, if_neg n2, if_neg n3]
      by_cases hend : (c0 = CR ∧ c1 = LF ∧ c2 = CR ∧ c3 = LF) ∨ (c0 = CR ∧ c1 = CR) ∨ (c0 = LF ∧ c1 = LF)
      · rw [if_pos hend]
        refine ⟨c0 :: c1 :: c2 :: c3 :: t, by simp, unfolded_self (not_continuation_blank ?_)⟩
        rcases hend with ⟨rfl, rfl, rfl, rfl⟩ | ⟨rfl, rfl⟩ | ⟨rfl, rfl⟩
        · exact ⟨_, .inl rfl⟩
        · exact ⟨_, .inr (.inl rfl)⟩
        · exact ⟨_, .inr (.inr rfl)⟩
      · rw [if_neg hend]
        have hnb : ¬ BlankLineAt (c0 :: c1 :: c2 :: c3 :: t) 0 := by
          rintro ⟨u, h⟩
          simp only [List.drop_zero, List.cons.injEq] at h
          apply hend
          rcases h with h | h | h
          · exact .inl ⟨h.1, h.2.1, h.2.2.1, h.2.2.2.1⟩
          · exact .inr (.inl ⟨h.1, h.2.1⟩)
          · exact .inr (.inr ⟨h.1, h.2.1⟩)
        by_cases hfold : (c0 = CR ∧ c1 = LF ∧ (c2 = ' ' ∨ c2 = '\t')) ∨ (c0 = CR ∧ (c1 = ' ' ∨ c1 = '\t')) ∨
            (c0 = LF ∧ (c1 = ' ' ∨ c1 = '\t'))
        · rw [if_pos hfold]
          -- the first two bytes and the blanks after them
          have hhead : ∃ nl b0, [c0, c1] ++ b0 = nl ++ (([c0, c1] ++ b0).drop nl.length) ∧ LineEnd nl ∧
              (b0 = [c2] ∧ nl = [c0, c1] ∧ IsBlank c2 ∨ b0 = [] ∧ nl = [c0] ∧ IsBlank c1) := by
            rcases hfold with ⟨rfl, rfl, h⟩ | ⟨rfl, h⟩ | ⟨rfl, h⟩
            · exact ⟨[CR, LF], [c2], by simp, .inl rfl, .inl ⟨rfl, rfl, h⟩⟩
            · exact ⟨[CR], [], by simp, .inr (.inl rfl), .inr ⟨rfl, rfl, h⟩⟩
            · exact ⟨[LF], [], by simp, .inr (.inr rfl), .inr ⟨rfl, rfl, h⟩⟩
          obtain ⟨nl, b0, -, hnl, hcase⟩ := hhead
          -- a non-blank follows
          have hnonblank : ∃ x ∈ (c2 :: c3 :: t), ¬ IsBlank x := by
            apply Classical.byContradiction
            intro hno
            have hall : ∀ x ∈ (c2 :: c3 :: t), IsBlank x := fun x hx => Classical.byContradiction fun h => hno ⟨x, hx, h⟩
            have hf : FoldAt (c0 :: c1 :: c2 :: c3 :: t) 0 (c0 :: c1 :: c2 :: c3 :: t).length := by
              rcases hcase with ⟨_, rfl, _⟩ | ⟨_, rfl, h1⟩
              · exact ⟨[c0, c1], c2 :: c3 :: t, [], by simp, hnl, by simp, hall, by simp; omega⟩
              · refine ⟨[c0], c1 :: c2 :: c3 :: t, [], by simp, hnl, by simp, ?_, by simp; omega⟩
                intro x hx
                rcases List.mem_cons.1 hx with rfl | hx
                · exact h1
                · exact hall x hx
            obtain ⟨c, hc, _⟩ := hne 0 _ hf
            simp at hc
          obtain ⟨b, x, u, hsplit, hb, hx, hskip⟩ := lwsSkip_spec (NUL :: r) hnonblank
          have e1 : c2 :: c3 :: (t ++ NUL :: r) = c2 :: c3 :: t ++ NUL :: r := by simp
          rw [e1, hskip]
          simp only [Option.bind_eq_bind, Option.bind_some, List.cons_append]
          -- the whole fold
          obtain ⟨b2, hb2, hb2ne, hb2l, hbf⟩ : ∃ b2 : Str, c0 :: c1 :: c2 :: c3 :: t = nl ++ b2 ++ x :: u ∧ b2 ≠ [] ∧
              (nl ++ b2).length = b.length + 2 ∧ ∀ c ∈ b2, IsBlank c := by
            rw [hsplit]
            rcases hcase with ⟨_, rfl, hc2⟩ | ⟨_, rfl, hc1⟩
            · refine ⟨b, by simp, ?_, by simp, hb⟩
              rintro rfl
              simp at hsplit
              exact hx (hsplit.1 ▸ hc2)
            · refine ⟨c1 :: b, by simp, by simp, by simp, ?_⟩
              intro c hc
              rcases List.mem_cons.1 hc with rfl | hc
              · exact hc1
              · exact hb c hc
          have hxx : ¬ (x = CR ∨ x = LF ∨ IsBlank x) := by
            have hf : FoldAt (c0 :: c1 :: c2 :: c3 :: t) 0 (nl ++ b2).length :=
              ⟨nl, b2, x :: u, by simpa using hb2, hnl, hb2ne, hbf, by simp⟩
            obtain ⟨c, hc, h1, h2⟩ := hne 0 _ hf
            rw [hb2] at hc
            simp at hc
            subst hc
            rintro (h | h | h)
            · exact h1 h
            · exact h2 h
            · exact hx h
          have hlen : (c0 :: c1 :: c2 :: c3 :: t).length = b.length + 2 + 1 + u.length := by
            rw [hb2, List.length_append, hb2l]; simp; omega
          simp only [List.length_cons] at hlen
          have hu_ok : Str.Ok u := by
            intro h
            have hm' : NUL ∈ c2 :: c3 :: t := by rw [hsplit]; simp [h]
            simp at hm'
            rcases hm' with h | h | h
            · exact n2 h.symm
            · exact n3 h.symm
            · exact nt h
          have hu_ne : NoEmptyContinuation u := by
            have : c0 :: c1 :: c2 :: c3 :: t = (nl ++ b2 ++ [x]) ++ u := by rw [hb2]; simp
            rw [this] at hne
            exact noEmpty_drop hne
          obtain ⟨u', hrun, hul, hup⟩ := ih (s := u) (n := n) (by omega) (by omega) hu_ok hu_ne r
          rw [hrun]
          refine ⟨' ' :: ' ' :: (List.replicate b.length ' ' ++ x :: u'), by simp, ?_, ?_⟩
          · simp [hul]; omega
          · intro i hi
            have hcont := continuation_fold hnl hb2ne hbf hxx (t := u) (by rw [← hb2]; simp) i
            rw [← hb2] at hcont
            rw [hb2l] at hcont
            have e2 : ' ' :: ' ' :: (List.replicate b.length ' ' ++ x :: u') = List.replicate (b.length + 2) ' ' ++ x :: u' := by
              simp [List.replicate_succ]
            rw [e2]
            rw [hcont]
            have hs_i : b.length + 2 ≤ i → (c0 :: c1 :: c2 :: c3 :: t)[i]? = (x :: u)[i - (b.length + 2)]? := by
              intro hle
              rw [hb2, List.getElem?_append_right (by rw [hb2l]; exact hle), hb2l]
            rcases Nat.lt_trichotomy i (b.length + 2) with h | h | h
            · refine ⟨fun _ => ?_, fun hn => absurd (.inl h) hn⟩
              rw [List.getElem?_append_left (by simp; omega), List.getElem?_replicate, if_pos h]
            · subst h
              refine ⟨fun hc => by omega, fun _ => ?_⟩
              rw [hs_i (Nat.le_refl _), List.getElem?_append_right (by simp)]
              simp
            · have hiu : i - (b.length + 2 + 1) < u.length := by simp only [List.length_cons] at hi; omega
              obtain ⟨p1, p2⟩ := hup (i - (b.length + 2 + 1)) hiu
              have e3 : (List.replicate (b.length + 2) ' ' ++ x :: u')[i]? = u'[i - (b.length + 2 + 1)]? := by
                rw [List.getElem?_append_right (by simp; omega)]
                simp only [List.length_replicate]
                have : i - (b.length + 2) = (i - (b.length + 2 + 1)) + 1 := by omega
                rw [this, List.getElem?_cons_succ]
              have e4 : (c0 :: c1 :: c2 :: c3 :: t)[i]? = u[i - (b.length + 2 + 1)]? := by
                rw [hs_i (by omega)]
                have : i - (b.length + 2) = (i - (b.length + 2 + 1)) + 1 := by omega
                rw [this, List.getElem?_cons_succ]
              rw [e3, e4]
              refine ⟨fun hc => ?_, fun hc => ?_⟩
              · rcases hc with hc | hc
                · omega
                · exact p1 hc.2
              · exact p2 (fun h' => hc (.inr ⟨h, h'⟩))
        · rw [if_neg hfold]
          have hnf : ∀ k, ¬ FoldAt (c0 :: c1 :: c2 :: c3 :: t) 0 k := by
            rintro k ⟨nl, b, u, e, hnl, hb, hbl, _⟩
            cases b with
            | nil => exact hb rfl
            | cons d b =>
              have hd := hbl d (by simp)
              apply hfold
              rcases hnl with rfl | rfl | rfl
              · simp at e
                exact .inl ⟨e.1, e.2.1, e.2.2.1 ▸ hd⟩
              · simp at e
                exact .inr (.inl ⟨e.1, e.2.1 ▸ hd⟩)
              · simp at e
                exact .inr (.inr ⟨e.1, e.2.1 ▸ hd⟩)
          obtain ⟨s', hrun, hl, hp⟩ := ih (s := c1 :: c2 :: c3 :: t) (n := n) (by simp; omega) (by simp; omega)
            (by simp only [Str.Ok, List.mem_cons, not_or]; exact hs.2) (noEmpty_tail hne) r
          simp only [List.cons_append] at hrun
          simp only [hrun, Option.bind_eq_bind, Option.bind_some]
          refine ⟨c0 :: s', by simp, by simp [hl], ?_⟩
          intro i hi
          cases i with
          | zero =>
            exact ⟨fun h => absurd h (not_continuation_zero hnf), fun _ => rfl⟩
          | succ i =>
            rw [continuation_cons hnf hnb]
            have := hp i (by simp at hi ⊢; omega)
            simpa using this

/-! ## Properties -/

/-- **C45** without empty continuation lines. For every such string, with any bytes after its
terminator, `osip_util_replace_all_lws` stays inside the string, keeps its length, and turns exactly
the line ends and white space of continuations into spaces. -/
theorem c45_unfolding_partial {s : Str} (hs : s.Ok) (hne : NoEmptyContinuation s) (r : List Char) :
    ∃ s', replace_all_lws (s ++ NUL :: r) = some (s' ++ NUL :: r) ∧ s'.length = s.length ∧
      ∀ i, i < s.length → (Continuation s i → s'[i]? = some ' ') ∧ (¬ Continuation s i → s'[i]? = s[i]?) :=
  lwsLoop_spec s.length (Nat.le_refl _) (by simp; omega) hs hne r

/-- **C45**. What follows the blank line is not touched. -/
theorem c45_body_untouched_partial {h body : Str} (hs : Str.Ok (h ++ body)) (hne : NoEmptyContinuation (h ++ body))
    (hb : BlankLineAt (h ++ body) h.length) (r : List Char) :
    ∃ h', replace_all_lws (h ++ body ++ NUL :: r) = some (h' ++ body ++ NUL :: r) ∧ h'.length = h.length := by
  obtain ⟨s', h1, h2, h3⟩ := c45_unfolding_partial hs hne r
  refine ⟨s'.take h.length, ?_, by simp [h2]⟩
  rw [h1]
  have hd : s'.drop h.length = body := by
    apply List.ext_getElem?
    intro i
    rw [List.getElem?_drop]
    by_cases hi : i < body.length
    · have hno : ¬ Continuation (h ++ body) (h.length + i) := by
        rintro ⟨j, n, hf, hj, hi', _, hbl⟩
        rcases Nat.lt_or_ge j h.length with hlt | hge
        · -- the fold would run into the blank line
          have hbl' : ∃ c, (h ++ body)[h.length]? = some c ∧ ¬ IsBlank c := by
            obtain ⟨u, hu | hu | hu⟩ := hb <;> rw [List.drop_left] at hu <;>
              refine ⟨_, by rw [List.getElem?_append_right (Nat.le_refl _), Nat.sub_self, hu]; rfl, ?_⟩ <;>
              (rintro (h | h) <;> revert h <;> decide)
          obtain ⟨c, hc, hcl⟩ := hbl'
          obtain ⟨nl, b, t, e, hnl, hbne, hbb, hn⟩ := hf
          have e2 : (h ++ body)[h.length]? = ((h ++ body).drop j)[h.length - j]? := by
            rw [List.getElem?_drop]; congr 1; omega
          rw [e2, e] at hc
          rcases Nat.lt_or_ge (h.length - j) nl.length with hlt' | hge'
          · have hnl' : nl = [CR, LF] ∧ h.length = j + 1 := by
              rcases hnl with rfl | rfl | rfl <;> simp at hlt' <;> try omega
              exact ⟨rfl, by omega⟩
            obtain ⟨rfl, hj1⟩ := hnl'
            have e3 : (h ++ body).drop h.length = LF :: (b ++ t) := by
              rw [hj1, ← List.drop_drop, e]; rfl
            cases b with
            | nil => exact hbne rfl
            | cons d b =>
              have hd := hbb d (by simp)
              obtain ⟨u, hu⟩ := hb
              rw [e3] at hu
              simp only [List.cons_append, List.cons.injEq] at hu
              rcases hu with hu | hu | hu
              · exact absurd hu.1 (by decide)
              · exact absurd hu.1 (by decide)
              · rw [hu.2.1] at hd
                rcases hd with h | h <;> revert h <;> decide
          · rw [List.append_assoc, List.getElem?_append_right hge', List.getElem?_append_left (by omega)] at hc
            exact hcl (hbb c (List.mem_of_getElem? hc))
        · exact hbl h.length hge hb
      rw [(h3 (h.length + i) (by simp; omega)).2 hno, List.getElem?_append_right (by omega)]
      congr 1; omega
    · rw [List.getElem?_eq_none (by simp at h2; omega), List.getElem?_eq_none (by omega)]
  have : s' = s'.take h.length ++ body := by rw [← hd]; simp
  conv => lhs; rw [this]

/-- **C45** is violated: after white space at the end of the string the pointer is moved over the
terminator and memory behind the string is read. -/
theorem c45_violated : replace_all_lws (Str.buf "a: b\r\n  ".toList) = none := by decide +kernel

/-- **C45** is violated: after an empty continuation line the blank line is missed and the body is
altered. -/
theorem c45_body_violated :
    replace_all_lws (Str.buf "a: b\r\n \r\n\r\nbody\r\n line".toList) =
      some (Str.buf "a: b   \r\n\r\nbody   line".toList) := by decide +kernel

/-! ## Examples -/

/-- It is enough that no blank stands directly before a line end or the end of the string. -/
theorem noEmpty_of {s : Str} (h : ∀ i < s.length, ∀ c ∈ s[i]?, (c = ' ' ∨ c = '\t') →
    ∃ d ∈ s[i + 1]?, d ≠ CR ∧ d ≠ LF) : NoEmptyContinuation s := by
  rintro j n ⟨nl, b, t, e, hnl, hne, hb, rfl⟩
  have hlen : 0 < b.length := List.length_pos_iff.2 hne
  have hlast : s[j + (nl.length + b.length) - 1]? = some (b[b.length - 1]'(by omega)) := by
    have : s[j + (nl.length + b.length) - 1]? = (s.drop j)[nl.length + b.length - 1]? := by
      rw [List.getElem?_drop]; congr 1; omega
    rw [this, e, List.getElem?_append_left (by simp; omega), List.getElem?_append_right (by omega),
      ← List.getElem?_eq_getElem]
    congr 1; omega
  have hlt : j + (nl.length + b.length) - 1 < s.length := by
    rcases Nat.lt_or_ge (j + (nl.length + b.length) - 1) s.length with h | h
    · exact h
    · rw [List.getElem?_eq_none h] at hlast; cases hlast
  obtain ⟨d, hd, h'⟩ := h _ hlt _ hlast (hb _ (List.getElem_mem _))
  refine ⟨d, ?_, h'⟩
  have : j + (nl.length + b.length) - 1 + 1 = j + (nl.length + b.length) := by omega
  rw [this] at hd
  exact hd

example : NoEmptyContinuation "a: b\r\n c\r\n\r\nbody\r\n x".toList :=
  noEmpty_of (by decide +kernel)

example : replace_all_lws (Str.buf "a: b\r\n\t c\r\n\r\nbody\r\n x".toList) =
    some (Str.buf "a: b    c\r\n\r\nbody\r\n x".toList) := by decide +kernel

end Osip
