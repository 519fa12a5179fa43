import Verif.Parse.PropsFold

/-!
# C70: search for the end of a line and of the header part
-/

set_option autoImplicit false

namespace Osip

/-! ## Specification -/

/-- Text without line ends. -/
def OneLine (l : Str) : Prop := ∀ c ∈ l, c ≠ CR ∧ c ≠ LF

/-- `nl` is the whole line end before `t`: a carriage return is not followed by its line feed. -/
def EndsLine (nl t : Str) : Prop := LineEnd nl ∧ (nl = [CR] → t.head? ≠ some LF)

def StartsBlank (t : Str) : Prop := ∃ c u, t = c :: u ∧ IsBlank c

/-- `s` consists of the given lines, none of which but the first is empty or starts with white space,
and then `t`. -/
inductive LinesThen : Str → List Str → Str → Prop
  | nil (t : Str) : LinesThen t [] t
  | cons {l nl s t : Str} {ls : List Str} : l ≠ [] → ¬ StartsBlank l → OneLine l → EndsLine nl s →
      LinesThen s ls t → LinesThen (l ++ nl ++ s) (l :: ls) t

/-! ## The end of a line -/

theorem crlf_run {l : Str} (hl : OneLine l) (hok : l.Ok) (u : List Char) (i : Nat) :
    find_next_crlf (l ++ u) i = find_next_crlf u (i + l.length) := by
  induction l generalizing i with
  | nil => simp
  | cons c l ih =>
    have hc := hl c (by simp)
    have hn : c ≠ NUL := by intro h; apply hok; simp [h]
    have : find_next_crlf (c :: (l ++ u)) i = find_next_crlf (l ++ u) (i + 1) := by
      rw [find_next_crlf.eq_def]; simp [hc, hn]
    rw [List.cons_append, this, ih (fun d hd => hl d (by simp [hd])) (by intro h; apply hok; simp [h])]
    simp only [List.length_cons]; congr 1; omega

theorem crlf_end {nl t : Str} (h : EndsLine nl t) (r : List Char) (i : Nat) :
    (StartsBlank t → find_next_crlf (nl ++ (t ++ NUL :: r)) i = some .continued) ∧
    (¬ StartsBlank t → find_next_crlf (nl ++ (t ++ NUL :: r)) i = some (.at (i + nl.length))) := by
  obtain ⟨h1, h2⟩ := h
  have hcr : CR ≠ LF := by decide
  have hsb : ∀ d u, StartsBlank (d :: u) ↔ (d = ' ' ∨ d = '\t') := by
    intro d u
    constructor
    · rintro ⟨c, v, h, hb⟩; cases h; exact hb
    · intro h; exact ⟨d, u, rfl, h⟩
  have hsn : ¬ StartsBlank ([] : Str) := by rintro ⟨c, v, h, _⟩; cases h
  rcases h1 with rfl | rfl | rfl
  · cases t with
    | nil =>
      refine ⟨fun h => absurd h hsn, fun _ => ?_⟩
      simp [find_next_crlf, CR, LF, NUL]
    | cons d t =>
      rw [hsb]
      refine ⟨fun h => ?_, fun h => ?_⟩
      · simp only [List.cons_append, List.nil_append, find_next_crlf, true_or, if_true, and_self, if_pos h]
      · simp only [List.cons_append, List.nil_append, find_next_crlf, true_or, if_true, and_self, if_neg h]; rfl
  · cases t with
    | nil =>
      refine ⟨fun h => absurd h hsn, fun _ => ?_⟩
      simp [find_next_crlf, CR, LF, NUL]
    | cons d t =>
      have hd : d ≠ LF := by simpa using h2 rfl
      rw [hsb]
      refine ⟨fun h => ?_, fun h => ?_⟩
      · simp only [List.cons_append, List.nil_append, find_next_crlf, true_or, if_true, hd, and_false, if_false, if_pos h]
      · simp only [List.cons_append, List.nil_append, find_next_crlf, true_or, if_true, hd, and_false, if_false, if_neg h]; rfl
  · cases t with
    | nil =>
      refine ⟨fun h => absurd h hsn, fun _ => ?_⟩
      simp [find_next_crlf, CR, LF, NUL]
    | cons d t =>
      rw [hsb]
      refine ⟨fun h => ?_, fun h => ?_⟩
      · simp only [List.cons_append, List.nil_append, find_next_crlf, or_true, if_true, hcr.symm, false_and, if_false, if_pos h]
      · simp only [List.cons_append, List.nil_append, find_next_crlf, or_true, if_true, hcr.symm, false_and, if_false, if_neg h]; rfl

theorem crlf_missing {l : Str} (hl : OneLine l) (hok : l.Ok) (r : List Char) (i : Nat) :
    find_next_crlf (l ++ NUL :: r) i = some .syntaxError := by
  rw [crlf_run hl hok]
  simp [find_next_crlf, CR, LF, NUL]

/-- Every string is one line, or a line, its end and the rest. -/
theorem first_line (s : Str) : OneLine s ∨ ∃ l nl t, s = l ++ nl ++ t ∧ OneLine l ∧ EndsLine nl t := by
  induction s with
  | nil => left; intro c hc; cases hc
  | cons c s ih =>
    by_cases h : c = CR
    · right
      subst h
      cases s with
      | nil => exact ⟨[], [CR], [], rfl, (by intro c hc; cases hc), .inr (.inl rfl), by simp⟩
      | cons d s =>
        by_cases hd : d = LF
        · subst hd
          exact ⟨[], [CR, LF], s, rfl, (by intro c hc; cases hc), .inl rfl, by simp⟩
        · exact ⟨[], [CR], d :: s, rfl, (by intro c hc; cases hc), .inr (.inl rfl), by simp [hd]⟩
    · by_cases h2 : c = LF
      · right
        subst h2
        exact ⟨[], [LF], s, rfl, (by intro c hc; cases hc), .inr (.inr rfl), by simp [CR, LF]⟩
      · rcases ih with ih | ⟨l, nl, t, rfl, hl, hnl⟩
        · left
          intro d hd
          rcases List.mem_cons.1 hd with rfl | hd
          · exact ⟨h, h2⟩
          · exact ih d hd
        · right
          refine ⟨c :: l, nl, t, by simp, ?_, hnl⟩
          intro d hd
          rcases List.mem_cons.1 hd with rfl | hd
          · exact ⟨h, h2⟩
          · exact hl d hd

/-- **C70**. For every string, `__osip_find_next_crlf` stays inside it. It reports a syntax error exactly
if there is no line end, a continued line exactly if white space follows the first line end, and
otherwise the position after the first line end. -/
theorem c70_next_crlf {s : Str} (hs : s.Ok) (r : List Char) :
    ∃ f, find_next_crlf (s ++ NUL :: r) 0 = some f ∧ (OneLine s → f = .syntaxError) ∧
      ∀ l nl t, s = l ++ nl ++ t → OneLine l → EndsLine nl t →
        (StartsBlank t → f = .continued) ∧ (¬ StartsBlank t → f = .at (l ++ nl).length) := by
  have key : ∀ l nl t, s = l ++ nl ++ t → OneLine l → EndsLine nl t →
      (StartsBlank t → find_next_crlf (s ++ NUL :: r) 0 = some .continued) ∧
      (¬ StartsBlank t → find_next_crlf (s ++ NUL :: r) 0 = some (.at (l ++ nl).length)) := by
    rintro l nl t rfl hl hnl
    have e : l ++ nl ++ t ++ NUL :: r = l ++ (nl ++ (t ++ NUL :: r)) := by simp
    rw [e, crlf_run hl (by intro h; apply hs; simp [h])]
    have := crlf_end hnl r (0 + l.length)
    simpa using this
  rcases first_line s with h | ⟨l, nl, t, e, hl, hnl⟩
  · refine ⟨_, crlf_missing h hs r 0, fun _ => rfl, ?_⟩
    rintro l nl t rfl hl hnl
    exfalso
    rcases hnl.1 with rfl | rfl | rfl
    · exact (h CR (by simp)).1 rfl
    · exact (h CR (by simp)).1 rfl
    · exact (h LF (by simp)).2 rfl
  · obtain ⟨k1, k2⟩ := key l nl t e hl hnl
    have hno : ¬ OneLine s := by
      intro h
      rw [e] at h
      rcases hnl.1 with rfl | rfl | rfl
      · exact (h CR (by simp)).1 rfl
      · exact (h CR (by simp)).1 rfl
      · exact (h LF (by simp)).2 rfl
    by_cases hb : StartsBlank t
    · refine ⟨_, k1 hb, fun h => absurd h hno, ?_⟩
      intro l' nl' t' e' hl' hnl'
      obtain ⟨g1, g2⟩ := key l' nl' t' e' hl' hnl'
      rw [k1 hb] at g1 g2
      exact ⟨fun h => by simpa using g1 h, fun h => by simpa using g2 h⟩
    · refine ⟨_, k2 hb, fun h => absurd h hno, ?_⟩
      intro l' nl' t' e' hl' hnl'
      obtain ⟨g1, g2⟩ := key l' nl' t' e' hl' hnl'
      rw [k2 hb] at g1 g2
      exact ⟨fun h => by simpa using g1 h, fun h => by simpa using g2 h⟩

/-! ## The end of the headers -/

theorem crlfcrlf_loop {s t : Str} {ls : List Str} (h : LinesThen s ls t) :
    s.Ok → ∀ {nl rest : Str}, t = nl ++ rest → EndsLine nl rest → ls ≠ [] → ∀ (r : List Char) (n i : Nat), ls.length < n →
      ∃ k, k + rest.length = s.length ∧ crlfcrlfLoop n (s ++ NUL :: r) i = some (.at (i + k)) := by
  induction h with
  | nil t => intro _ _ _ _ _ h; exact absurd rfl h
  | @cons l nl s t ls hne hnb hol hel hlt ih =>
    intro hok nl' rest ht hel' _ r n i hn
    obtain ⟨n, rfl⟩ : ∃ m, n = m + 1 := ⟨n - 1, by omega⟩
    have hs : Str.Ok s := by intro h; apply hok; simp [h]
    have hsb : ¬ StartsBlank s := by
      cases hlt with
      | nil =>
        subst ht
        rcases hel'.1 with rfl | rfl | rfl
        · rintro ⟨c, u, h, hb⟩; cases h; revert hb; unfold IsBlank; decide
        · rintro ⟨c, u, h, hb⟩; cases h; revert hb; unfold IsBlank; decide
        · rintro ⟨c, u, h, hb⟩; cases h; revert hb; unfold IsBlank; decide
      | @cons l2 nl2 s2 _ _ hne2 hnb2 _ _ _ =>
        rintro ⟨c, u, h, hb⟩
        cases l2 with
        | nil => exact hne2 rfl
        | cons d l2 => cases h; exact hnb2 ⟨_, _, rfl, hb⟩
    have e1 : l ++ nl ++ s ++ NUL :: r = l ++ (nl ++ (s ++ NUL :: r)) := by simp
    have hfind : find_next_crlf (l ++ nl ++ s ++ NUL :: r) 0 = some (.at (l ++ nl).length) := by
      rw [e1, crlf_run hol (by intro h; apply hok; simp [h]), (crlf_end hel r _).2 hsb]
      simp
    have e2 : (l ++ nl ++ s ++ NUL :: r).drop (l ++ nl).length = s ++ NUL :: r := by
      rw [List.append_assoc, List.drop_left]
    have e2' : l ++ nl ++ s ++ NUL :: r = (l ++ nl) ++ (s ++ NUL :: r) := by simp
    simp only [crlfcrlfLoop, hfind, Option.bind_eq_bind, Option.bind_some, e2]
    cases hlt with
    | nil =>
      subst ht
      rcases hel'.1 with rfl | rfl | rfl
      · refine ⟨(l ++ nl).length + 2, by simp; omega, ?_⟩
        simp [CR, LF, NUL]; omega
      · have hd := hel'.2 rfl
        refine ⟨(l ++ nl).length + 1, by simp; omega, ?_⟩
        cases rest with
        | nil => simp [CR, LF, NUL]; omega
        | cons d rest =>
          have : d ≠ LF := by simpa using hd
          simp only [LF] at this
          simp [CR, LF, NUL, this]; omega
      · refine ⟨(l ++ nl).length + 1, by simp; omega, ?_⟩
        simp [CR, LF, NUL]; omega
    | @cons l2 nl2 s2 _ ls2 hne2 hnb2 hol2 hel2 hlt2 =>
      cases l2 with
      | nil => exact absurd rfl hne2
      | cons d l2 =>
        have hd := hol2 d (by simp)
        have hdn : d ≠ NUL := by intro h; apply hs; simp [h]
        obtain ⟨k, hk1, hk2⟩ := ih hs ht hel' (by simp) r n (i + (l ++ nl).length) (by simp at hn ⊢; omega)
        simp only [List.cons_append, hd.1, hd.2, hdn, if_false] at hk2 ⊢
        refine ⟨(l ++ nl).length + k, ?_, ?_⟩
        · simp at hk1 ⊢; omega
        · rw [hk2]; congr 2; omega

/-- **C70** without continued lines. After any number of lines and a blank line, `__osip_find_next_crlfcrlf`
gives the position behind the blank line. -/
theorem c70_next_crlfcrlf_partial {s nl rest : Str} {ls : List Str} (h : LinesThen s ls (nl ++ rest)) (hls : ls ≠ [])
    (hs : s.Ok) (hnl : EndsLine nl rest) (r : List Char) :
    ∃ k, k + rest.length = s.length ∧ find_next_crlfcrlf (s ++ NUL :: r) = some (.at k) := by
  have hlen : ∀ {s t : Str} {ls : List Str}, LinesThen s ls t → ls.length ≤ s.length := by
    intro s t ls h
    induction h with
    | nil => simp
    | cons hne _ _ hel _ ih =>
      have := List.length_pos_iff.2 hne
      simp at this ⊢; omega
  obtain ⟨k, h1, h2⟩ := crlfcrlf_loop h hs rfl hnl hls r ((s ++ NUL :: r).length + 1) 0 (by have := hlen h; simp; omega)
  exact ⟨k, h1, by rw [find_next_crlfcrlf, h2, Nat.zero_add]⟩

theorem crlfcrlf_none {s t : Str} {ls : List Str} (h : LinesThen s ls t) : s.Ok → OneLine t → ¬ StartsBlank t →
    ∀ (r : List Char) (n i : Nat), ls.length < n → crlfcrlfLoop n (s ++ NUL :: r) i = some .syntaxError := by
  induction h with
  | nil t =>
    intro hok hol _ r n i hn
    obtain ⟨n, rfl⟩ : ∃ m, n = m + 1 := ⟨n - 1, by omega⟩
    simp only [crlfcrlfLoop, crlf_missing hol hok, Option.bind_eq_bind, Option.bind_some]
  | @cons l nl s t ls hne hnb hol hel hlt ih =>
    intro hok hot htb r n i hn
    obtain ⟨n, rfl⟩ : ∃ m, n = m + 1 := ⟨n - 1, by omega⟩
    have hs : Str.Ok s := by intro h; apply hok; simp [h]
    have hhead : ¬ StartsBlank s ∧ ∀ d u, s = d :: u → d ≠ CR ∧ d ≠ LF := by
      cases hlt with
      | nil => exact ⟨htb, by rintro d u rfl; exact hot d (by simp)⟩
      | @cons l2 nl2 s2 _ _ hne2 hnb2 hol2 _ _ =>
        cases l2 with
        | nil => exact absurd rfl hne2
        | cons d l2 =>
          constructor
          · rintro ⟨c, u, h, hb⟩
            cases h; exact hnb2 ⟨_, _, rfl, hb⟩
          · intro e u h
            cases h; exact hol2 _ (by simp)
    have e1 : l ++ nl ++ s ++ NUL :: r = l ++ (nl ++ (s ++ NUL :: r)) := by simp
    have hfind : find_next_crlf (l ++ nl ++ s ++ NUL :: r) 0 = some (.at (l ++ nl).length) := by
      rw [e1, crlf_run hol (by intro h; apply hok; simp [h]), (crlf_end hel r _).2 hhead.1]
      simp
    have e2 : (l ++ nl ++ s ++ NUL :: r).drop (l ++ nl).length = s ++ NUL :: r := by
      rw [List.append_assoc, List.drop_left]
    simp only [crlfcrlfLoop, hfind, Option.bind_eq_bind, Option.bind_some, e2]
    cases s with
    | nil => simp
    | cons d s =>
      have hd := hhead.2 d s rfl
      have hdn : d ≠ NUL := by intro h; apply hs; simp [h]
      have := ih hs hot htb r n (i + (l ++ nl).length) (by simp at hn; omega)
      simp only [List.cons_append, hd.1, hd.2, hdn, if_false] at this ⊢
      exact this

/-- **C70** without continued lines. If there is no blank line, `__osip_find_next_crlfcrlf` reports a syntax
error. -/
theorem c70_no_blank_line_partial {s t : Str} {ls : List Str} (h : LinesThen s ls t) (hs : s.Ok) (ht : OneLine t)
    (hb : ¬ StartsBlank t) (r : List Char) : find_next_crlfcrlf (s ++ NUL :: r) = some .syntaxError := by
  have hlen : ∀ {s t : Str} {ls : List Str}, LinesThen s ls t → ls.length ≤ s.length := by
    intro s t ls h
    induction h with
    | nil => simp
    | cons hne _ _ hel _ ih =>
      have := List.length_pos_iff.2 hne
      simp at this ⊢; omega
  exact crlfcrlf_none h hs ht hb r _ 0 (by have := hlen h; simp; omega)

/-- **C70** is violated: on a continued line a null pointer is read. -/
theorem c70_violated : find_next_crlfcrlf (Str.buf "a: b\r\n c\r\n\r\nx".toList) = none := by decide +kernel

/-! ## Examples -/

example : find_next_crlf (Str.buf "a: b\r\nc".toList) 0 = some (.at 6) := by decide +kernel
example : find_next_crlf (Str.buf "a: b\r\n c".toList) 0 = some .continued := by decide +kernel
example : find_next_crlfcrlf (Str.buf "a: b\r\nc: d\r\n\r\nx".toList) = some (.at 14) := by decide +kernel
example : LinesThen "a\r\nb\n\nx".toList ["a".toList, "b".toList] "\nx".toList := by
  refine .cons (l := "a".toList) (nl := [CR, LF]) (s := "b\n\nx".toList) (by decide) ?_ (by unfold OneLine; decide)
    ⟨.inl rfl, by decide⟩ (.cons (l := "b".toList) (nl := [LF]) (s := "\nx".toList) (by decide) ?_ (by unfold OneLine; decide)
    ⟨.inr (.inr rfl), by decide⟩ (.nil _)) <;>
  (rintro ⟨c, u, h, hb⟩; cases h; revert hb; unfold IsBlank; decide)

end Osip
