import Verif.Str.PropsQuote

/-!
# C42: `osip_enquote` and `osip_dequote`
-/

set_option autoImplicit false

namespace Osip

/-! ## Specification -/

/-- Removes backslash escapes: a backslash stands for the character after it. -/
def unescape : Str → Str
  | [] => []
  | '\\' :: d :: u => d :: unescape u
  | ['\\'] => []
  | c :: u => c :: unescape u

/-- The text of a quoted string: without the surrounding quotes (the closing one may be missing) and
without escapes; anything not starting with a quote is left alone. -/
def unquoted : Str → Str
  | '"' :: t => unescape (if t.getLast? = some '"' then t.dropLast else t)
  | s => s

/-! ## `osip_enquote` -/

/-- The characters written for one character. -/
def enqChar (c : Char) : Str :=
  if c = '"' ∨ c = '\\' ∨ c = '\x7f' then ['\\', c] else if c = '\n' ∨ c = '\r' then [' '] else [c]

theorem enqChar_length (c : Char) : (enqChar c).length ≤ 2 := by
  unfold enqChar; split <;> (try split) <;> simp

theorem enq_length (s : Str) : (s.flatMap enqChar).length ≤ 2 * s.length := by
  induction s with
  | nil => simp
  | cons c s ih =>
    have := enqChar_length c
    simp only [List.flatMap_cons, List.length_append, List.length_cons]
    omega

theorem enquoteLoop_run (s : Str) : ∀ {p q : List Char} {t : Int}, t = p.length → 2 * s.length ≤ q.length →
    enquoteLoop s (p ++ q) t = some (p ++ (s.flatMap enqChar ++ q.drop (s.flatMap enqChar).length),
      ((p.length + (s.flatMap enqChar).length : Nat) : Int)) := by
  induction s with
  | nil => intro p q t ht hq; simp [enquoteLoop, ht]
  | cons c s ih =>
    intro p q t ht hq
    obtain ⟨a, b, q, rfl⟩ : ∃ a b q', q = a :: b :: q' := by
      match q with
      | [] => simp at hq
      | [_] => simp at hq; omega
      | a :: b :: q' => exact ⟨a, b, q', rfl⟩
    simp only [List.length_cons] at hq
    simp only [enquoteLoop, List.flatMap_cons]
    by_cases h1 : c = '"' ∨ c = '\\' ∨ c = '\x7f'
    · have e : enqChar c = ['\\', c] := by simp [enqChar, h1]
      simp only [h1, if_true, wr_at p a '\\' (b :: q) ht, Option.bind_eq_bind, Option.bind_some]
      have e2 : p ++ '\\' :: b :: q = (p ++ ['\\']) ++ b :: q := by simp
      rw [e2, wr_at _ b c q (by simp [ht])]
      simp only [Option.bind_some]
      have := ih (p := p ++ ['\\', c]) (q := q) (t := t + 2) (by simp [ht]) (by omega)
      simp only [List.append_assoc, List.cons_append, List.nil_append] at this ⊢
      rw [this, e]
      simp; omega
    · by_cases h2 : c = '\n' ∨ c = '\r'
      · have e : enqChar c = [' '] := by simp [enqChar, h1, h2]
        simp only [h1, h2, if_true, if_false, wr_at p a ' ' (b :: q) ht, Option.bind_eq_bind, Option.bind_some]
        have := ih (p := p ++ [' ']) (q := b :: q) (t := t + 1) (by simp [ht]) (by simp; omega)
        simp only [List.append_assoc, List.cons_append, List.nil_append] at this ⊢
        rw [this, e]
        simp; omega
      · have e : enqChar c = [c] := by simp [enqChar, h1, h2]
        simp only [h1, h2, if_false, wr_at p a c (b :: q) ht, Option.bind_eq_bind, Option.bind_some]
        have := ih (p := p ++ [c]) (q := b :: q) (t := t + 1) (by simp [ht]) (by simp; omega)
        simp only [List.append_assoc, List.cons_append, List.nil_append] at this ⊢
        rw [this, e]
        simp; omega

theorem enquote_run {s : Str} {fresh : Nat → Buf} (hf : ∀ n, (fresh n).length = n) :
    ∃ r, osip_enquote s fresh = some (('"' :: s.flatMap enqChar ++ ['"']) ++ NUL :: r) ∧
      (('"' :: s.flatMap enqChar ++ ['"']) ++ NUL :: r).length = s.length * 2 + 3 := by
  unfold osip_enquote
  generalize hb : fresh (s.length * 2 + 3) = b
  have hbl : b.length = s.length * 2 + 3 := by rw [← hb, hf]
  cases b with
  | nil => simp at hbl
  | cons a b =>
    have h1 : Buf.wr (a :: b) 0 '"' = some ('"' :: b) := wr_at [] a '"' b rfl
    have hle := enq_length s
    simp only [List.length_cons] at hbl
    have h2 := enquoteLoop_run s (p := ['"']) (q := b) (t := 1) rfl (by omega)
    simp only [List.singleton_append] at h2
    simp only [h1, h2, Option.bind_eq_bind, Option.bind_some]
    have hd : (s.flatMap enqChar).length + 1 < b.length := by omega
    have e1 : b.drop (s.flatMap enqChar).length = b[(s.flatMap enqChar).length] ::
        b[(s.flatMap enqChar).length + 1] :: b.drop ((s.flatMap enqChar).length + 2) := by
      rw [List.drop_eq_getElem_cons (by omega), List.drop_eq_getElem_cons (by omega)]
    rw [e1]
    have e2 : ∀ x y (z : List Char), '"' :: (s.flatMap enqChar ++ x :: y :: z) =
        ('"' :: s.flatMap enqChar) ++ x :: y :: z := by simp
    rw [e2, wr_at _ _ '"' _ (by simp; omega)]
    simp only [Option.bind_some]
    have e3 : ∀ y (z : List Char), ('"' :: s.flatMap enqChar) ++ '"' :: y :: z =
        ('"' :: s.flatMap enqChar ++ ['"']) ++ y :: z := by simp
    rw [e3, wr_at _ _ NUL _ (by simp; omega)]
    refine ⟨_, rfl, ?_⟩
    simp only [List.length_append, List.length_cons, List.length_nil, List.length_drop]
    omega

/-! ## `osip_dequote` -/

theorem move_left {p u r : List Char} {c : Char} {s : Int} {n : Nat} (hs : s = p.length)
    (hn : n = u.length + 1) :
    Buf.move (p ++ (c :: u ++ NUL :: r)) s (s + 1) n = some (p ++ (u ++ NUL :: NUL :: r)) := by
  have e1 : p ++ (c :: u ++ NUL :: r) = (p ++ [c]) ++ (u ++ [NUL]) ++ r := by simp
  have h1 : Buf.rdN (p ++ (c :: u ++ NUL :: r)) (s + 1) n = some (u ++ [NUL]) := by
    rw [e1]; exact rdN_at _ _ _ (by simp [hs]) (by simp [hn])
  simp only [Buf.move, h1, Option.bind_eq_bind, Option.bind_some]
  have e2 : p ++ (c :: u ++ NUL :: r) = p ++ (c :: u) ++ (NUL :: r) := by simp
  rw [e2, wrN_at p (c :: u) (NUL :: r) (u ++ [NUL]) hs (by simp)]
  simp

theorem dequoteLoop_run (m : Nat) : ∀ {p u r : List Char} {s : Int} {fuel : Nat}, u.length ≤ m →
    s = p.length → Str.Ok p → Str.Ok u → u.length < 2 ^ 64 → u.length + 1 ≤ fuel →
    ∃ z, dequoteLoop fuel (p ++ (u ++ NUL :: r)) s u.length = some (p ++ unescape u ++ NUL :: (z ++ r)) ∧
      z.length + (unescape u).length = u.length := by
  induction m with
  | zero =>
    intro p u r s fuel hm hs hp hu hl hf
    have : u = [] := List.length_eq_zero_iff.1 (by omega)
    subst this
    obtain ⟨fuel, rfl⟩ : ∃ k, fuel = k + 1 := ⟨fuel - 1, by simp at hf; omega⟩
    refine ⟨[], ?_, rfl⟩
    simp only [dequoteLoop, List.nil_append, rd_at p NUL r hs, Option.bind_eq_bind, Option.bind_some, if_true]
    simp [unescape, pure]
  | succ m ih =>
    intro p u r s fuel hm hs hp hu hl hf
    obtain ⟨fuel, rfl⟩ : ∃ k, fuel = k + 1 := ⟨fuel - 1, by omega⟩
    cases u with
    | nil => exact ih (by simp) hs hp hu hl hf
    | cons c u =>
      have hc : c ≠ NUL := by intro h; apply hu; simp [h]
      have hu' : Str.Ok u := by intro h; apply hu; simp [h]
      simp only [List.length_cons] at hm hl hf ⊢
      simp only [dequoteLoop, List.cons_append, rd_at p c _ hs, Option.bind_eq_bind, Option.bind_some, hc, if_false]
      by_cases hb : c = '\\'
      · subst hb
        have hmv := move_left (p := p) (u := u) (r := r) (c := '\\') (s := s) (n := u.length + 1) hs rfl
        simp only [List.cons_append] at hmv
        simp only [if_true, hmv, Option.bind_some]
        cases u with
        | nil =>
          obtain ⟨fuel, rfl⟩ : ∃ k, fuel = k + 1 := ⟨fuel - 1, by simp at hf; omega⟩
          have e : p ++ ([] ++ NUL :: NUL :: r) = (p ++ [NUL]) ++ NUL :: r := by simp
          refine ⟨[NUL], ?_, rfl⟩
          rw [e]
          simp only [dequoteLoop, rd_at (p ++ [NUL]) NUL r (i := s + 1) (by simp [hs]), Option.bind_eq_bind, Option.bind_some, if_true]
          simp [unescape, pure]
        | cons d u =>
          have hd : d ≠ NUL := by intro h; apply hu'; simp [h]
          have hpd : Str.Ok (p ++ [d]) := by
            intro h; rw [List.mem_append] at h
            rcases h with h | h
            · exact hp h
            · simp at h; exact hd h.symm
          have hu2 : Str.Ok u := by intro h; apply hu'; simp [h]
          simp only [List.length_cons] at hm hl hf
          obtain ⟨z, hz, hzl⟩ := ih (p := p ++ [d]) (u := u) (r := NUL :: r) (s := s + 1) (fuel := fuel) (by omega)
            (by simp [hs]) hpd hu2 (by omega) (by omega)
          have hlen : ((d :: u).length + 1 + 2 ^ 64 - 2) % 2 ^ 64 = u.length := by
            simp only [List.length_cons]; omega
          rw [hlen]
          have e : p ++ (d :: u ++ NUL :: NUL :: r) = (p ++ [d]) ++ (u ++ NUL :: NUL :: r) := by simp
          rw [e, hz]
          refine ⟨z ++ [NUL], by simp [unescape], by simp [unescape]; omega⟩
      · simp only [hb, if_false]
        have hpc : Str.Ok (p ++ [c]) := by
          intro h; rw [List.mem_append] at h
          rcases h with h | h
          · exact hp h
          · simp at h; exact hc h.symm
        obtain ⟨z, hz, hzl⟩ := ih (p := p ++ [c]) (u := u) (r := r) (s := s + 1) (fuel := fuel) (by omega)
          (by simp [hs]) hpc hu' (by omega) (by omega)
        have hlen : (u.length + 1 + 2 ^ 64 - 1) % 2 ^ 64 = u.length := by omega
        rw [hlen]
        have e : p ++ c :: (u ++ NUL :: r) = (p ++ [c]) ++ (u ++ NUL :: r) := by simp
        rw [e, hz]
        have hun : unescape (c :: u) = c :: unescape u := by
          rw [unescape]
          · intros; simp_all
          · intros; simp_all
        refine ⟨z, by rw [hun]; simp, by rw [hun]; simp; omega⟩

theorem unescape_ok {u : Str} (h : Str.Ok u) : Str.Ok (unescape u) := by
  intro hm
  apply h
  induction u using unescape.induct with
  | case1 => exact hm
  | case2 d u ih =>
    simp only [unescape, List.mem_cons] at hm
    rcases hm with hm | hm
    · simp [hm]
    · have := ih (fun hx => h (by simp [hx])) hm
      simp [this]
  | case3 => simp [unescape] at hm
  | case4 c u h1 h2 ih =>
    rw [unescape.eq_4 c u h1 h2] at hm
    rcases List.mem_cons.1 hm with hm | hm
    · simp [hm]
    · have := ih (fun hx => h (by simp [hx])) hm
      simp [this]

/-- `osip_dequote` is memory safe on every string: it accesses only the string and its terminator,
whatever follows them, and leaves its unquoted text. -/
theorem c42_dequote {s : Str} (hs : s.Ok) (hl : s.length < 2 ^ 64) (r : List Char) :
    ∃ u : List Char, u.length = s.length + 1 ∧ osip_dequote (s ++ NUL :: r) = some (u ++ r) ∧
      Buf.str (u ++ r) = unquoted s := by
  cases s with
  | nil => exact ⟨[NUL], rfl, rfl, rfl⟩
  | cons c t =>
    have hc : c ≠ NUL := by intro h; apply hs; simp [h]
    have ht : Str.Ok t := by intro h; apply hs; simp [h]
    have hr0 : Buf.rd (c :: t ++ NUL :: r) 0 = some c := rd_at [] c _ rfl
    simp only [osip_dequote, hr0, Option.bind_eq_bind, Option.bind_some, hc, if_false]
    by_cases hq : c = '"'
    · subst hq
      have hsl := strlen_at [] hs r (i := 0) rfl
      simp only [List.nil_append, List.length_cons] at hsl
      have hmv := move_left (p := []) (u := t) (r := r) (c := '"') (s := 0) (n := t.length + 1) rfl rfl
      simp only [List.nil_append, Int.zero_add] at hmv
      simp only [ne_eq, not_true_eq_false, if_false, hsl, hmv, Option.bind_some, List.length_cons,
        Nat.add_sub_cancel]
      simp only [List.length_cons] at hl
      by_cases hne : t = []
      · subst hne
        exact ⟨[NUL, NUL], rfl, by
          simp [dequoteLoop, Buf.rd, pure], by simp [Buf.str, unquoted, unescape]⟩
      · have e := List.dropLast_concat_getLast hne
        have hpos := List.length_pos_iff.2 hne
        have hdl : t.dropLast.length + 1 = t.length := by rw [List.length_dropLast]; omega
        have hrd : Buf.rd (t ++ NUL :: NUL :: r) ((t.length : Int) - 1) = some (t.getLast hne) := by
          have : t ++ NUL :: NUL :: r = t.dropLast ++ t.getLast hne :: (NUL :: NUL :: r) := by
            conv => lhs; rw [← e]
            simp
          rw [this]
          exact rd_at _ _ _ (by omega)
        simp only [gt_iff_lt, hpos, if_true, hrd, Option.bind_some, true_and]
        have hgl : t.getLast? = some (t.getLast hne) := List.getLast?_eq_some_getLast hne
        by_cases hlast : t.getLast hne = '"'
        · simp only [hlast, if_true]
          have hw : Buf.wr (t ++ NUL :: NUL :: r) ((t.length : Int) - 1) NUL =
              some (t.dropLast ++ NUL :: NUL :: NUL :: r) := by
            have : t ++ NUL :: NUL :: r = t.dropLast ++ t.getLast hne :: (NUL :: NUL :: r) := by
              conv => lhs; rw [← e]
              simp
            rw [this]
            exact wr_at _ _ _ _ (by omega)
          simp only [hw, Option.bind_some]
          have hdo : Str.Ok t.dropLast := fun h => ht (List.dropLast_subset _ h)
          obtain ⟨z, hz, hzl⟩ := dequoteLoop_run t.dropLast.length (p := []) (u := t.dropLast)
            (r := NUL :: NUL :: r) (s := 0) (fuel := (t.dropLast ++ NUL :: NUL :: NUL :: r).length + 1) (Nat.le_refl _) rfl
            (by simp [Str.Ok]) hdo (by omega) (by simp)
          simp only [List.nil_append] at hz
          have hl1 : t.length - 1 = t.dropLast.length := by omega
          rw [hl1, hz]
          refine ⟨unescape t.dropLast ++ NUL :: (z ++ [NUL, NUL]), by simp; omega, by simp, ?_⟩
          have huq : unquoted ('"' :: t) = unescape t.dropLast := by
            simp [unquoted, hgl, hlast]
          rw [huq]
          have := str_at (unescape_ok hdo) (z ++ [NUL, NUL] ++ r)
          simpa using this
        · simp only [hlast, if_false]
          obtain ⟨z, hz, hzl⟩ := dequoteLoop_run t.length (p := []) (u := t)
            (r := NUL :: r) (s := 0) (fuel := (t ++ NUL :: NUL :: r).length + 1) (Nat.le_refl _) rfl
            (by simp [Str.Ok]) ht (by omega) (by simp)
          simp only [List.nil_append] at hz
          rw [hz]
          refine ⟨unescape t ++ NUL :: (z ++ [NUL]), by simp; omega, by simp, ?_⟩
          have huq : unquoted ('"' :: t) = unescape t := by
            simp [unquoted, hgl, hlast]
          rw [huq]
          have := str_at (unescape_ok ht) (z ++ [NUL] ++ r)
          simpa using this
    · simp only [ne_eq, hq, not_false_eq_true, if_true]
      refine ⟨c :: t ++ [NUL], by simp, by simp [pure], ?_⟩
      have huq : unquoted (c :: t) = c :: t := by
        unfold unquoted
        split
        · next h => simp at h; exact absurd h.1 hq
        · rfl
      rw [huq]
      have := str_at hs r
      simpa using this

/-! ## C42 -/

theorem unescape_enq (s : Str) (h : ∀ c ∈ s, c ≠ '\r' ∧ c ≠ '\n') : unescape (s.flatMap enqChar) = s := by
  induction s with
  | nil => rfl
  | cons c s ih =>
    have ih := ih (fun c hc => h c (by simp [hc]))
    have hc := h c (by simp)
    simp only [List.flatMap_cons]
    by_cases h1 : c = '"' ∨ c = '\\' ∨ c = '\x7f'
    · have e : enqChar c = ['\\', c] := by simp [enqChar, h1]
      simp [e, unescape, ih]
    · have e : enqChar c = [c] := by simp [enqChar, h1, hc]
      have hb : c ≠ '\\' := fun hx => h1 (.inr (.inl hx))
      rw [e, List.singleton_append, unescape.eq_4, ih]
      · intros; simp_all
      · intros; simp_all

theorem trail_snoc (p : Str) (c : Char) :
    ((p ++ [c]).reverse.takeWhile (· = '\\')).length =
      if c = '\\' then (p.reverse.takeWhile (· = '\\')).length + 1 else 0 := by
  rw [List.reverse_append, List.reverse_singleton, List.singleton_append, List.takeWhile_cons]
  by_cases h : c = '\\' <;> simp [h]

theorem enq_quotes (s : Str) : ∀ (p tl : Str), (p.reverse.takeWhile (· = '\\')).length % 2 = 0 →
    ((p ++ s.flatMap enqChar).reverse.takeWhile (· = '\\')).length % 2 = 0 ∧
    ∀ j, p.length ≤ j → j < (p ++ s.flatMap enqChar).length →
      ¬ UnescapedQuote (p ++ s.flatMap enqChar ++ tl) j := by
  induction s with
  | nil => intro p tl h; exact ⟨by simpa using h, fun j h1 h2 => by simp at h2; omega⟩
  | cons c s ih =>
    intro p tl h
    simp only [List.flatMap_cons]
    by_cases h1 : c = '"' ∨ c = '\\' ∨ c = '\x7f'
    · have e : enqChar c = ['\\', c] := by simp [enqChar, h1]
      have ht1 := trail_snoc p '\\'
      rw [if_pos rfl] at ht1
      have ht2 := trail_snoc (p ++ ['\\']) c
      have hev : ((p ++ ['\\', c]).reverse.takeWhile (· = '\\')).length % 2 = 0 := by
        rw [List.append_assoc] at ht2
        simp only [List.singleton_append] at ht2
        rw [ht2]
        split
        · rw [ht1]; omega
        · rfl
      obtain ⟨g1, g2⟩ := ih (p ++ ['\\', c]) tl hev
      rw [e]
      simp only [List.append_assoc] at g1 g2 ⊢
      refine ⟨g1, fun j hj1 hj2 hu => ?_⟩
      by_cases hj : p.length + 2 ≤ j
      · exact g2 j (by simp; omega) hj2 hu
      · by_cases hj0 : j = p.length
        · subst hj0
          have := hu.1
          simp at this
        · have hj1' : j = (p ++ ['\\']).length := by simp; omega
          have := hu.2
          have ea : p ++ (['\\', c] ++ (s.flatMap enqChar ++ tl)) =
              (p ++ ['\\']) ++ (c :: (s.flatMap enqChar ++ tl)) := by simp
          rw [ea, hj1', backslashes_append, ht1] at this
          omega
    · have e : ∃ d, enqChar c = [d] ∧ d ≠ '"' ∧ d ≠ '\\' := by
        unfold enqChar
        rw [if_neg h1]
        split
        · exact ⟨' ', rfl, by decide, by decide⟩
        · exact ⟨c, rfl, fun hx => h1 (.inl hx), fun hx => h1 (.inr (.inl hx))⟩
      obtain ⟨d, e, hd1, hd2⟩ := e
      have ht1 := trail_snoc p d
      rw [if_neg hd2] at ht1
      obtain ⟨g1, g2⟩ := ih (p ++ [d]) tl (by rw [ht1])
      rw [e]
      simp only [List.append_assoc] at g1 g2 ⊢
      refine ⟨g1, fun j hj1 hj2 hu => ?_⟩
      by_cases hj : p.length + 1 ≤ j
      · exact g2 j (by simp; omega) hj2 hu
      · have hj0 : j = p.length := by omega
        subst hj0
        have := hu.1
        simp at this
        exact hd1 this

/-- **C42**. For every string, `osip_enquote` stays inside the block it allocates, whatever that block
contains; the result starts with a quote, and the first unescaped quote after it is the last
character. For a string without CR and LF, `osip_dequote` of the result gives the string back. -/
theorem c42_enquote {s : Str} (hs : s.Ok) (hl : s.length < 2 ^ 62) {fresh : Nat → Buf}
    (hf : ∀ n, (fresh n).length = n) :
    ∃ (b : Buf) (q : Str), osip_enquote s fresh = some b ∧ b.str = '"' :: q ∧
      FirstFrom q 0 (some ((q.length : Int) - 1)) ∧
      ((∀ c ∈ s, c ≠ '\r' ∧ c ≠ '\n') → ∃ b', osip_dequote b = some b' ∧ b'.str = s) := by
  obtain ⟨r, h1, h2⟩ := enquote_run (s := s) hf
  have hle := enq_length s
  have hok : Str.Ok ('"' :: s.flatMap enqChar ++ ['"']) := by
    intro hm
    have hq : NUL ≠ '"' := by decide
    have hb : NUL ≠ '\\' := by decide
    have hsp : NUL ≠ ' ' := by decide
    simp only [List.cons_append, List.mem_cons, List.mem_append, List.mem_flatMap, List.not_mem_nil, or_false,
      hq, false_or] at hm
    obtain ⟨c, hc, hm⟩ := hm
    unfold enqChar at hm
    split at hm
    · simp only [List.mem_cons, List.not_mem_nil, or_false, hb, false_or] at hm
      exact hs (hm ▸ hc)
    · split at hm
      · simp only [List.mem_cons, List.not_mem_nil, or_false] at hm
        exact hsp hm
      · simp only [List.mem_cons, List.not_mem_nil, or_false] at hm
        exact hs (hm ▸ hc)
  refine ⟨_, s.flatMap enqChar ++ ['"'], h1, ?_, ?_, ?_⟩
  · rw [str_at hok]; simp
  · obtain ⟨g1, g2⟩ := enq_quotes s [] ['"'] (by simp)
    simp only [List.nil_append] at g1 g2
    refine ⟨(s.flatMap enqChar).length, by simp, Nat.zero_le _, ⟨by simp, ?_⟩, fun j h1 h2 => g2 j (by simp) h2⟩
    rw [backslashes_append]
    exact g1
  · intro hcr
    obtain ⟨u, e1, e2, e3⟩ := c42_dequote hok (by simp only [List.length_append, List.length_cons, List.length_nil]; omega) r
    refine ⟨_, e2, ?_⟩
    rw [e3]
    have : unquoted ('"' :: s.flatMap enqChar ++ ['"']) = unescape (s.flatMap enqChar) := by
      simp [unquoted]
    rw [this, unescape_enq s hcr]

example : (osip_enquote "a\"b\\".toList (fun n => List.replicate n '#')).map Buf.str =
    some "\"a\\\"b\\\\\"".toList := by decide +kernel
example : (osip_dequote (Str.buf "\"a\\\"b\\\\\"".toList)).map Buf.str = some "a\"b\\".toList := by
  decide +kernel
/-- A lone backslash at the end is dropped, without reading past the terminator. -/
example : (osip_dequote (Str.buf "\"a\\".toList)).map Buf.str = some "a".toList := by decide +kernel

end Osip
