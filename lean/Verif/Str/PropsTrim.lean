import Verif.Str.Port

/-!
# C39, C40, C43: trimming, bounded trimmed copy, removing quotes
-/

set_option autoImplicit false

namespace Osip

/-! ## Specification -/

/-- `s` without its leading and trailing blanks (space, tab, CR, LF). -/
def trim (s : Str) : Str :=
  ((s.dropWhile (· ∈ [' ', '\t', '\r', '\n'])).reverse.dropWhile (· ∈ [' ', '\t', '\r', '\n'])).reverse

/-! ## Lemmas -/

theorem isBlank_iff {c : Char} : isBlank c = true ↔ c ∈ [' ', '\t', '\r', '\n'] := by
  simp [isBlank]; grind

theorem isBlank_eq (c : Char) : isBlank c = decide (c ∈ [' ', '\t', '\r', '\n']) := by
  rw [Bool.eq_iff_iff, isBlank_iff, decide_eq_true_iff]

theorem trim_eq (s : Str) : trim s = ((s.dropWhile isBlank).reverse.dropWhile isBlank).reverse := by
  have : isBlank = fun c => decide (c ∈ [' ', '\t', '\r', '\n']) := funext isBlank_eq
  rw [this]; rfl

theorem dropWhile_append_blank {w r : Str} (h : ∀ c ∈ w, isBlank c = true) :
    (w ++ r).dropWhile isBlank = r.dropWhile isBlank := by
  induction w with
  | nil => rfl
  | cons c w ih =>
    rw [List.cons_append, List.dropWhile_cons_of_pos (h c (by simp))]
    exact ih (fun c hc => h c (by simp [hc]))

theorem trim_mid {w₁ m w₂ m₂ : Str} {a z : Char} {m₁ : Str} (h1 : ∀ c ∈ w₁, isBlank c = true)
    (h2 : ∀ c ∈ w₂, isBlank c = true) (ha : isBlank a = false) (hz : isBlank z = false)
    (e1 : m = a :: m₁) (e2 : m = m₂ ++ [z]) : trim (w₁ ++ m ++ w₂) = m := by
  rw [trim_eq, List.append_assoc, dropWhile_append_blank h1]
  have : (m ++ w₂).dropWhile isBlank = m ++ w₂ := by
    rw [e1, List.cons_append, List.dropWhile_cons_of_neg (by simp [ha])]
  rw [this, List.reverse_append, dropWhile_append_blank (by simpa using h2), e2]
  simp [List.dropWhile_cons_of_neg, hz]

/-- A string is all blank or has a non-blank first and a non-blank last character. -/
theorem trim_cases (s : Str) : ((∀ c ∈ s, isBlank c = true) ∧ trim s = []) ∨
    ∃ w₁ m w₂ a z m₁ m₂, s = w₁ ++ m ++ w₂ ∧ (∀ c ∈ w₁, isBlank c = true) ∧
      (∀ c ∈ w₂, isBlank c = true) ∧ isBlank a = false ∧ isBlank z = false ∧ m = a :: m₁ ∧
      m = m₂ ++ [z] := by
  have hs : s = s.takeWhile isBlank ++ s.dropWhile isBlank := (List.takeWhile_append_dropWhile).symm
  cases hd : s.dropWhile isBlank with
  | nil =>
    left
    refine ⟨?_, by simp [trim_eq, hd]⟩
    intro c hc
    rw [hs, hd, List.append_nil] at hc
    exact List.all_takeWhile (l := s) (p := isBlank) |> fun h => List.all_eq_true.1 h c hc
  | cons a t =>
    right
    have ha : isBlank a = false := by
      have := List.head?_dropWhile_not isBlank s
      rw [hd] at this
      simpa using this
    have hr : (a :: t).reverse = (a :: t).reverse.takeWhile isBlank ++ (a :: t).reverse.dropWhile isBlank :=
      (List.takeWhile_append_dropWhile).symm
    cases hd2 : (a :: t).reverse.dropWhile isBlank with
    | nil =>
      rw [hd2, List.append_nil] at hr
      have : a ∈ (a :: t).reverse.takeWhile isBlank := by rw [← hr]; simp
      have := List.all_eq_true.1 (List.all_takeWhile (l := (a :: t).reverse) (p := isBlank)) a this
      rw [ha] at this; cases this
    | cons z u =>
      have hz : isBlank z = false := by
        have := List.head?_dropWhile_not isBlank (a :: t).reverse
        rw [hd2] at this
        simpa using this
      generalize hw2 : (a :: t).reverse.takeWhile isBlank = w2 at hr
      have hb2 : ∀ c ∈ w2, isBlank c = true := by
        intro c hc
        rw [← hw2] at hc
        exact List.all_eq_true.1 List.all_takeWhile c hc
      rw [hd2] at hr
      have hat : a :: t = u.reverse ++ [z] ++ w2.reverse := by
        have := congrArg List.reverse hr
        simpa using this
      have hm : ∃ m₁, u.reverse ++ [z] = a :: m₁ := by
        cases hu : u.reverse with
        | nil =>
          rw [hu] at hat
          simp at hat
          exact ⟨[], by simp [hat.1]⟩
        | cons x v =>
          rw [hu] at hat
          simp at hat
          exact ⟨v ++ [z], by simp [hat.1]⟩
      obtain ⟨m₁, hm₁⟩ := hm
      refine ⟨s.takeWhile isBlank, u.reverse ++ [z], w2.reverse, a, z, m₁, u.reverse, ?_, ?_, ?_, ha,
        hz, hm₁, rfl⟩
      · rw [List.append_assoc, ← hat, ← hd, ← hs]
      · intro c hc
        exact List.all_eq_true.1 List.all_takeWhile c hc
      · simpa using hb2

theorem skipBlanks_run {p w q : List Char} {c : Char} (hw : ∀ c ∈ w, isBlank c = true)
    (hc : isBlank c = false) {n : Nat} (hn : w.length < n) {i : Int} (hi : i = p.length) :
    skipBlanks (p ++ (w ++ c :: q)) n i = some ((p.length : Int) + (w.length : Int)) := by
  induction w generalizing p n i with
  | nil =>
    obtain ⟨n, rfl⟩ : ∃ k, n = k + 1 := ⟨n - 1, by simp at hn; omega⟩
    simp only [skipBlanks, List.nil_append]
    rw [rd_at p c q hi]
    simp [hc, hi]
  | cons x w ih =>
    obtain ⟨n, rfl⟩ : ∃ k, n = k + 1 := ⟨n - 1, by simp at hn; omega⟩
    simp only [skipBlanks, List.cons_append]
    rw [rd_at p x _ hi]
    have := ih (p := p ++ [x]) (n := n) (i := i + 1) (fun c hc => hw c (by simp [hc]))
      (by simp at hn; omega) (by simp [hi])
    simp only [List.append_assoc, List.singleton_append] at this
    simp only [Option.bind_eq_bind, Option.bind_some, hw x (by simp), if_true, this]
    simp; omega

theorem backBlanks_run {p w r : List Char} {c : Char} (hw : ∀ c ∈ w, isBlank c = true)
    (hc : isBlank c = false) {pbeg : Int} (hp : pbeg ≤ p.length) {n : Nat} (hn : w.length < n) {i : Int}
    (hi : i = p.length + w.length) :
    backBlanks (p ++ (c :: w ++ r)) pbeg n i = some (some (p.length : Int)) := by
  obtain ⟨v, rfl⟩ : ∃ v, w = v.reverse := ⟨w.reverse, by simp⟩
  induction v generalizing r n i with
  | nil =>
    obtain ⟨n, rfl⟩ : ∃ k, n = k + 1 := ⟨n - 1, by simp at hn; omega⟩
    simp only [backBlanks, List.cons_append, List.nil_append, List.reverse_nil]
    rw [rd_at p c _ (by simp [hi])]
    simp [hc, hi]
  | cons x v ih =>
    rw [List.reverse_cons] at hw hn hi ⊢
    generalize v.reverse = w at hw hn hi ih ⊢
    obtain ⟨n, rfl⟩ : ∃ k, n = k + 1 := ⟨n - 1, by simp at hn; omega⟩
    have e : p ++ (c :: (w ++ [x]) ++ r) = (p ++ c :: w) ++ x :: r := by simp
    have hx : isBlank x = true := hw x (by simp)
    simp only [backBlanks]
    rw [e, rd_at _ x r (by simp [hi])]
    simp only [Option.bind_eq_bind, Option.bind_some, hx, if_true]
    rw [if_neg (by simp at hi; omega)]
    have := ih (r := x :: r) (n := n) (i := i - 1) (fun c hc => hw c (by simp [hc]))
      (by simp at hn; omega) (by simp at hi; omega)
    rw [← this]
    simp

/-! ## C39 -/

/-- **C39**. For every string - with any bytes `r` after its terminator - `osip_clrspace` leaves the
string without its outer blanks, and does not access anything before or after the string and its
terminator (`r` may be empty). -/
theorem c39_clrspace {s : Str} (hs : s.Ok) (r : List Char) :
    ∃ u : List Char, u.length = s.length + 1 ∧
      osip_clrspace (some (s ++ NUL :: r)) = some (OSIP_SUCCESS, some (u ++ r)) ∧
      Buf.str (u ++ r) = trim s := by
  have hnb : isBlank NUL = false := by decide
  have hl := strlen_at [] hs r (i := 0) rfl
  simp only [List.nil_append] at hl
  cases s with
  | nil => exact ⟨[NUL], rfl, by simp [osip_clrspace, Buf.rd], by simp [Buf.str, trim]⟩
  | cons x t =>
    have hx : x ≠ NUL := by
      intro h; apply hs; simp [h]
    have hr0 : Buf.rd (x :: t ++ NUL :: r) 0 = some x := rd_at [] x _ rfl
    simp only [osip_clrspace, Option.bind_eq_bind, Option.bind_some, hr0, hx, if_false, hl]
    rcases trim_cases (x :: t) with ⟨hall, ht⟩ | ⟨w₁, m, w₂, a, z, m₁, m₂, e, h1, h2, ha, hz, e1, e2⟩
    · have h1 := skipBlanks_run (p := []) (q := r) hall hnb (n := (x :: t).length + 1) (by simp) (i := 0) rfl
      simp only [List.nil_append, List.length_nil, Int.natCast_zero, Int.zero_add] at h1
      simp only [h1, Option.bind_some]
      have h2 : backBlanks (x :: t ++ NUL :: r) ((x :: t).length : Int)
          (x :: t).length (((x :: t).length : Nat) - 1 : Int) = some none := by
        have hne : (x :: t) ≠ [] := by simp
        have e := List.dropLast_concat_getLast hne
        have hlen : (x :: t).length = (x :: t).dropLast.length + 1 := by simp
        have hb : isBlank ((x :: t).getLast hne) = true := hall _ (List.getLast_mem hne)
        have hrd : Buf.rd (x :: t ++ NUL :: r) (((x :: t).length : Nat) - 1 : Int) = some ((x :: t).getLast hne) := by
          have e' : x :: t ++ NUL :: r = (x :: t).dropLast ++ (x :: t).getLast hne :: (NUL :: r) := by
            conv => lhs; rw [← e]
            simp
          rw [e']
          exact rd_at _ _ _ (by rw [hlen]; simp)
        rw [hlen]
        simp only [backBlanks]
        rw [← hlen, hrd]
        simp only [Option.bind_eq_bind, Option.bind_some, hb, if_true]
        rw [if_pos (by simp; omega)]
      simp only [h2, Option.bind_some]
      have h3 : Buf.wr (x :: t ++ NUL :: r) 0 NUL = some (NUL :: t ++ NUL :: r) := wr_at [] x NUL _ rfl
      simp only [h3, Option.bind_some]
      exact ⟨NUL :: t ++ [NUL], by simp, by simp [pure], by simp [ht, Buf.str]⟩
    · have ew : x :: t ++ NUL :: r = [] ++ (w₁ ++ a :: (m₁ ++ w₂ ++ NUL :: r)) := by
        rw [e, e1]; simp
      have q1 := skipBlanks_run (p := []) (q := m₁ ++ w₂ ++ NUL :: r) h1 ha (n := (x :: t).length + 1)
        (by rw [e]; simp; omega) (i := 0) rfl
      rw [← ew] at q1
      simp only [List.length_nil, Int.natCast_zero, Int.zero_add] at q1
      simp only [q1, Option.bind_some]
      have ew2 : x :: t ++ NUL :: r = (w₁ ++ m₂) ++ (z :: w₂ ++ NUL :: r) := by
        rw [e, e2]; simp
      have hlen : ((x :: t).length : Int) = w₁.length + m.length + w₂.length := by
        rw [e]; simp; omega
      have hlen' : ((t.length : Int)) + 1 = w₁.length + m.length + w₂.length := by
        rw [← hlen]; simp
      have hml : (m.length : Int) = m₂.length + 1 := by rw [e2]; simp
      have q2 := backBlanks_run (p := w₁ ++ m₂) (r := NUL :: r) h2 hz
        (pbeg := (w₁.length : Int)) (by simp; omega)
        (n := (x :: t).length) (by omega) (i := (((x :: t).length : Nat) : Int) - 1) (by rw [hlen, List.length_append]; omega)
      rw [← ew2] at q2
      simp only [q2, Option.bind_some]
      -- the terminator behind the last non-blank
      have hmok : Str.Ok m := by
        intro hm; apply hs; rw [e]; simp [hm]
      have q3 : ∃ w₃ : List Char, w₃.length = w₂.length ∧
          (if (((w₁ ++ m₂).length : Int)) + 1 ≤ ((x :: t).length : Nat) - 1 then
            Buf.wr (x :: t ++ NUL :: r) ((((w₁ ++ m₂).length : Nat) : Int) + 1) NUL
          else some (x :: t ++ NUL :: r)) = some (w₁ ++ m ++ (NUL :: w₃) ++ r) := by
        cases w₂ with
        | nil =>
          rw [if_neg (by simp at hlen ⊢; omega)]
          exact ⟨[], rfl, by rw [e]; simp⟩
        | cons y v =>
          rw [if_pos (by simp at hlen ⊢; omega)]
          refine ⟨v ++ [NUL], by simp, ?_⟩
          have : x :: t ++ NUL :: r = (w₁ ++ m) ++ y :: (v ++ NUL :: r) := by rw [e]; simp
          rw [this, wr_at _ _ _ _ (by simp; omega)]
          simp
      obtain ⟨w₃, hw3, q3⟩ := q3
      simp only [q3, Option.bind_some]
      by_cases hw1 : w₁ = []
      · subst hw1
        refine ⟨m ++ (NUL :: w₃), by simp at hlen' ⊢; omega, ?_, ?_⟩
        · simp [pure]
        · rw [e, trim_mid h1 h2 ha hz e1 e2]
          have := str_at hmok (w₃ ++ r)
          simpa using this
      · have hne : (w₁.length : Int) ≠ 0 := by
          have := List.length_pos_iff.2 hw1
          simp; omega
        simp only [ne_eq, hne, not_false_eq_true, if_true]
        have hcnt : ((((w₁ ++ m₂).length : Nat) : Int) - ((w₁.length : Int)) + 2).toNat
            = (m ++ [NUL]).length := by simp; omega
        have hmv : Buf.move (w₁ ++ m ++ (NUL :: w₃) ++ r) 0 ((w₁.length : Int))
            ((((w₁ ++ m₂).length : Nat) : Int) - ((w₁.length : Int)) + 2).toNat
            = some (m ++ [NUL] ++ (w₁ ++ m ++ (NUL :: w₃)).drop (m ++ [NUL]).length ++ r) := by
          rw [hcnt]
          have a1 : w₁ ++ m ++ (NUL :: w₃) ++ r = w₁ ++ (m ++ [NUL]) ++ (w₃ ++ r) := by simp
          have a2 : Buf.rdN (w₁ ++ (m ++ [NUL]) ++ (w₃ ++ r)) ((w₁.length : Int))
              (m ++ [NUL]).length = some (m ++ [NUL]) := rdN_at _ _ _ (by simp) rfl
          simp only [Buf.move, a1, a2, Option.bind_eq_bind, Option.bind_some]
          rw [← a1]
          have a3 : w₁ ++ m ++ (NUL :: w₃) ++ r = [] ++ (w₁ ++ m ++ (NUL :: w₃)).take (m ++ [NUL]).length ++
              ((w₁ ++ m ++ (NUL :: w₃)).drop (m ++ [NUL]).length ++ r) := by
            rw [List.nil_append, ← List.append_assoc, List.take_append_drop]
          have hle : (m ++ [NUL]).length ≤ (w₁ ++ m ++ (NUL :: w₃)).length := by simp; omega
          conv => lhs; rw [a3]
          rw [wrN_at [] _ _ (m ++ [NUL]) (i := 0) rfl (by rw [List.length_take]; omega)]
          simp
        simp only [hmv, Option.bind_some]
        refine ⟨m ++ [NUL] ++ (w₁ ++ m ++ (NUL :: w₃)).drop (m ++ [NUL]).length, ?_, ?_, ?_⟩
        · simp; omega
        · simp [pure]
        · rw [e, trim_mid h1 h2 ha hz e1 e2]
          have := str_at hmok ((w₁ ++ m ++ (NUL :: w₃)).drop (m ++ [NUL]).length ++ r)
          simpa using this

example : osip_clrspace (some (Str.buf "\t x y\r\n".toList)) =
    some (OSIP_SUCCESS, some ("x y".toList ++ [NUL, 'y', NUL, '\n', NUL])) := by decide +kernel

/-! ## C40 -/

theorem skipBlanks_buf (s : Str) (r : List Char) :
    skipBlanks (s ++ NUL :: r) ((s ++ NUL :: r).length + 1) 0 = some ((s.takeWhile isBlank).length : Int) := by
  have hw : ∀ c ∈ s.takeWhile isBlank, isBlank c = true :=
    fun c hc => List.all_eq_true.1 List.all_takeWhile c hc
  have hs : s ++ NUL :: r = s.takeWhile isBlank ++ (s.dropWhile isBlank ++ NUL :: r) := by
    rw [← List.append_assoc, List.takeWhile_append_dropWhile]
  have hle : (s.takeWhile isBlank).length < (s ++ NUL :: r).length + 1 := by
    rw [hs]; simp; omega
  cases hd : s.dropWhile isBlank with
  | nil =>
    rw [hd, List.nil_append] at hs
    have := skipBlanks_run (p := []) (q := r) hw (c := NUL) (by decide) hle (i := 0) rfl
    rw [List.nil_append, ← hs] at this
    simpa using this
  | cons a t =>
    have ha : isBlank a = false := by
      have := List.head?_dropWhile_not isBlank s
      rw [hd] at this
      simpa using this
    rw [hd, List.cons_append] at hs
    have := skipBlanks_run (p := []) (q := t ++ NUL :: r) hw (c := a) ha hle (i := 0) rfl
    rw [List.nil_append, ← hs] at this
    simpa using this

theorem wr_some {b : Buf} {i : Int} (c : Char) (h0 : 0 ≤ i) (h1 : i.toNat < b.length) :
    b.wr i c = some (b.set i.toNat c) := by simp [Buf.wr, h0, h1]

theorem padZeros_run {len : Nat} {n : Nat} {b : Buf} {p : Int} {k : Nat} (hp : p + 1 = k) (hk : k < len)
    (hb : len ≤ b.length) (hn : len - k ≤ n) : ∃ b', padZeros len n b p k = some b' ∧
      b'.length = b.length ∧ b'.take k = b.take k ∧ b'.drop len = b.drop len := by
  induction n generalizing b p k with
  | zero => omega
  | succ n ih =>
    simp only [padZeros]
    rw [hp, wr_some NUL (by omega) (by simp; omega)]
    simp only [Option.bind_eq_bind, Option.bind_some, Int.toNat_natCast]
    split
    · next h =>
      obtain ⟨b', h1, h2, h3, h4⟩ := ih (b := b.set k NUL) (p := k) (k := k + 1) (by simp) h (by simpa using hb)
        (by omega)
      refine ⟨b', h1, by simpa using h2, ?_, ?_⟩
      · have := congrArg (List.take k) h3
        rw [List.take_take, List.take_take, Nat.min_eq_left (by omega)] at this
        rw [this, List.take_set_of_le (Nat.le_refl _)]
      · rw [h4, List.drop_set_of_lt (by omega)]
    · exact ⟨_, rfl, by simp, by rw [List.take_set_of_le (Nat.le_refl _)],
        by rw [List.drop_set_of_lt (by omega)]⟩

/-- **C40**. For every string and every `len` up to its length, `osip_clrncpy` into a block of at least
`len + 1` bytes leaves there the first `len` bytes without outer blanks, NUL-terminated; it reads only
the source string and its terminator, writes only the first `len + 1` bytes of the destination. -/
theorem c40_clrncpy {s : Str} (hs : s.Ok) {len : Nat} (hlen : len ≤ s.length) {dst : Buf}
    (hd : len + 1 ≤ dst.length) (r : List Char) : ∃ d', osip_clrncpy dst (some (s ++ NUL :: r)) len = some d' ∧
      d'.length = dst.length ∧ d'.drop (len + 1) = dst.drop (len + 1) ∧
      d'.str = trim (s.take len) := by
  have hw0 : ∃ d', Buf.wr dst 0 NUL = some d' ∧ d'.length = dst.length ∧
      d'.drop (len + 1) = dst.drop (len + 1) ∧ d'.str = [] := by
    cases dst with
    | nil => simp at hd
    | cons c d => exact ⟨NUL :: d, wr_at [] c NUL d rfl, rfl, rfl, rfl⟩
  unfold osip_clrncpy
  by_cases h0 : len = 0
  · simp only [h0, if_true, List.take_zero]
    subst h0
    have : trim [] = [] := rfl
    rw [this]
    exact hw0
  · simp only [h0, if_false, skipBlanks_buf, Option.bind_eq_bind, Option.bind_some]
    have hsd : s = s.take len ++ s.drop len := (List.take_append_drop len s).symm
    have htl : (s.take len).length = len := by rw [List.length_take]; omega
    rcases trim_cases (s.take len) with ⟨hall, ht⟩ | ⟨w₁, m, w₂, a, z, m₁, m₂, e, h1, h2, ha, hz, e1, e2⟩
    · rw [ht]
      have hge : len ≤ (s.takeWhile isBlank).length := by
        have : s.takeWhile isBlank = s.take len ++ (s.drop len).takeWhile isBlank := by
          conv => lhs; rw [hsd]
          exact List.takeWhile_append_of_pos hall
        rw [this, List.length_append]; omega
      have hback : backBlanks (s ++ NUL :: r) ((s.takeWhile isBlank).length : Int) len ((len : Int) - 1) = some none := by
        obtain ⟨n, rfl⟩ : ∃ n, len = n + 1 := ⟨len - 1, by omega⟩
        simp only [backBlanks]
        have hne : s.take (n + 1) ≠ [] := by intro h; rw [h] at htl; simp at htl
        have hl := List.dropLast_concat_getLast hne
        have hb := hall _ (List.getLast_mem hne)
        have hx : (s ++ NUL :: r) = (s.take (n + 1)).dropLast ++ (s.take (n + 1)).getLast hne :: (s.drop (n + 1) ++ NUL :: r) := by
          conv => lhs; rw [hsd, ← hl]
          simp
        rw [hx, rd_at _ _ _ (by rw [List.length_dropLast, htl]; simp)]
        simp only [Option.bind_eq_bind, Option.bind_some, hb, if_true]
        rw [if_pos (by omega)]
      simp only [hback, Option.bind_some]
      exact hw0
    · have hml : (m.length : Int) = m₂.length + 1 := by rw [e2]; simp
      have hsum : w₁.length + m.length + w₂.length = len := by
        rw [← htl, e]; simp; omega
      have htw : s.takeWhile isBlank = w₁ := by
        rw [hsd, e, e1]
        rw [List.append_assoc, List.append_assoc, List.takeWhile_append_of_pos h1]
        simp [ha]
      have ew2 : (s ++ NUL :: r) = (w₁ ++ m₂) ++ (z :: w₂ ++ (s.drop len ++ NUL :: r)) := by
        conv => lhs; rw [hsd, e, e2]
        simp
      have q2 := backBlanks_run (p := w₁ ++ m₂) (r := s.drop len ++ NUL :: r) h2 hz
        (pbeg := (w₁.length : Int)) (by simp; omega) (n := len) (by omega) (i := (len : Int) - 1)
        (by rw [List.length_append]; omega)
      rw [← ew2] at q2
      rw [htw]
      simp only [q2, Option.bind_some]
      have hk : ((((w₁ ++ m₂).length : Nat) : Int) - (w₁.length : Int) + 1).toNat = m.length := by
        simp; omega
      rw [hk]
      have hrd : Buf.rdN (s ++ NUL :: r) (w₁.length : Int) m.length = some m := by
        have : (s ++ NUL :: r) = w₁ ++ m ++ (w₂ ++ (s.drop len ++ NUL :: r)) := by
          conv => lhs; rw [hsd, e]
          simp
        rw [this]
        exact rdN_at _ _ _ rfl rfl
      simp only [hrd, Option.bind_some]
      have hw1 : Buf.wrN dst 0 m = some (m ++ dst.drop m.length) := by
        have : dst = [] ++ dst.take m.length ++ dst.drop m.length := by simp
        conv => lhs; rw [this]
        rw [wrN_at [] _ _ m (i := 0) rfl (by rw [List.length_take]; omega)]
        simp
      simp only [hw1, Option.bind_some]
      have hmok : Str.Ok m := by
        intro hm; apply hs; rw [hsd, e]; simp [hm]
      have htr : trim (s.take len) = m := by rw [e, trim_mid h1 h2 ha hz e1 e2]
      rw [htr]
      have hdl : m.length < dst.length := by omega
      have hw2 : Buf.wr (m ++ dst.drop m.length) (m.length : Int) NUL =
          some (m ++ NUL :: dst.drop (m.length + 1)) := by
        rw [List.drop_eq_getElem_cons hdl, wr_at _ _ _ _ rfl]
      simp only [hw2, Option.bind_some]
      split
      · next hlt =>
        obtain ⟨b', g1, g2, g3, g4⟩ := padZeros_run (len := len) (n := len)
          (b := m ++ NUL :: dst.drop (m.length + 1)) (p := (m.length : Int)) (k := m.length + 1) (by simp) hlt
          (by simp; omega) (by omega)
        refine ⟨b', g1, by rw [g2]; simp; omega, ?_, ?_⟩
        · have : b'.drop (len + 1) = (b'.drop len).drop 1 := by rw [List.drop_drop]
          rw [this, g4, List.drop_drop]
          have e3 : m ++ NUL :: dst.drop (m.length + 1) = (m ++ [NUL]) ++ dst.drop (m.length + 1) := by simp
          rw [e3, List.drop_append]
          have : (m ++ [NUL]).length = m.length + 1 := by simp
          rw [this, List.drop_drop]
          have : (m ++ [NUL]).drop (len + 1) = [] := List.drop_eq_nil_of_le (by simp; omega)
          rw [this, List.nil_append]
          congr 1
          omega
        · have : b' = m ++ NUL :: b'.drop (m.length + 1) := by
            conv => lhs; rw [← List.take_append_drop (m.length + 1) b', g3]
            rw [List.take_append, List.take_of_length_le (by omega)]
            simp
          rw [this]
          exact str_at hmok _
      · next hlt =>
        refine ⟨_, rfl, by simp; omega, ?_, str_at hmok _⟩
        have e3 : m ++ NUL :: dst.drop (m.length + 1) = (m ++ [NUL]) ++ dst.drop (m.length + 1) := by simp
        rw [e3, List.drop_append]
        have : (m ++ [NUL]).length = m.length + 1 := by simp
        rw [this, List.drop_drop]
        have : (m ++ [NUL]).drop (len + 1) = [] := List.drop_eq_nil_of_le (by simp; omega)
        rw [this, List.nil_append]
        congr 1
        omega

example : osip_clrncpy "########".toList (some (Str.buf " ab \t;x=1".toList)) 5 =
    some ("ab".toList ++ [NUL, NUL, NUL] ++ "###".toList) := by decide +kernel

/-! ## C43 -/

theorem strncpy_all {dst : Buf} {s : Str} (h : s.length + 1 ≤ dst.length) :
    osip_strncpy dst 0 s s.length = some (s ++ NUL :: dst.drop (s.length + 1)) := by
  simp only [osip_strncpy, List.take_length, Nat.sub_self, List.replicate_zero, List.append_nil,
    Option.bind_eq_bind]
  have : dst = [] ++ dst.take s.length ++ dst.drop s.length := by simp
  have h1 : Buf.wrN dst 0 s = some (s ++ dst.drop s.length) := by
    conv => lhs; rw [this]
    rw [wrN_at [] _ _ s (i := 0) rfl (by rw [List.length_take]; omega)]
    simp
  rw [h1, Option.bind_some, List.drop_eq_getElem_cons (by omega : s.length < dst.length),
    wr_at _ _ _ _ (by simp)]

/-- What the copy is: the text without its first and its last character if the first one is a quote. -/
def withoutQuote : Str → Str
  | '"' :: rest => rest.dropLast
  | s => s

/-- **C43** (every string but a lone quote). `osip_strdup_without_quote` accesses only its argument and
the block it allocated, whatever that block contains, and the copy is as specified. -/
theorem c43_without_quote_partial {s : Str} (hs : s.Ok) (hq : s ≠ ['"']) {fresh : Nat → Buf}
    (hf : ∀ n, (fresh n).length = n) : ∃ b, osip_strdup_without_quote s fresh = some b ∧
      b.length = s.length + 1 ∧ b.str = withoutQuote s := by
  unfold osip_strdup_without_quote
  split
  · next rest =>
    have hr : Str.Ok rest := by intro h; apply hs; simp [h]
    have hne : rest ≠ [] := by rintro rfl; exact hq rfl
    have hfl := hf (('"' :: rest).length + 1)
    have hcp := strncpy_all (dst := fresh (('"' :: rest).length + 1)) (s := rest) (by rw [hfl]; simp)
    simp only [hcp, Option.bind_eq_bind, Option.bind_some]
    have htl : ((fresh (('"' :: rest).length + 1)).drop (rest.length + 1)).length = 1 := by
      rw [List.length_drop, hfl]; simp
    have hl := strlen_at [] hr ((fresh (('"' :: rest).length + 1)).drop (rest.length + 1)) (i := 0) rfl
    rw [List.nil_append] at hl
    simp only [hl, Option.bind_some]
    have e := List.dropLast_concat_getLast hne
    have hll : rest.length = rest.dropLast.length + 1 := by
      rw [List.length_dropLast]; have := List.length_pos_iff.2 hne; omega
    generalize (fresh (('"' :: rest).length + 1)).drop (rest.length + 1) = tl at *
    have hr2 : Str.Ok rest.dropLast := fun h => hr (List.dropLast_subset _ h)
    simp only [osip_strncpy, List.take_nil, List.length_nil, Nat.sub_zero, Option.bind_eq_bind,
      List.nil_append, List.replicate_one]
    have e1 : rest ++ NUL :: tl = rest.dropLast ++ [rest.getLast hne] ++ (NUL :: tl) := by rw [e]
    rw [e1, wrN_at _ _ _ _ (by omega) (by simp)]
    simp only [Option.bind_some]
    rw [wr_at _ NUL _ _ (by simp; omega)]
    refine ⟨_, rfl, ?_, ?_⟩
    · simp; omega
    · simp only [withoutQuote, List.append_assoc, List.cons_append, List.nil_append]
      exact str_at hr2 _
  · next h =>
    have hcp := strncpy_all (dst := fresh (s.length + 1)) (s := s) (by rw [hf]; omega)
    simp only [hcp]
    refine ⟨_, rfl, by simp [hf], ?_⟩
    rw [str_at hs]
    unfold withoutQuote
    split
    · next rest' => exact absurd rfl (h rest')
    · rfl

/-- A lone quote makes `osip_strdup_without_quote` write before the start of its block. -/
theorem c43_violated (fresh : Nat → Buf) (hf : ∀ n, (fresh n).length = n) :
    osip_strdup_without_quote ['"'] fresh = none := by
  unfold osip_strdup_without_quote
  simp only [List.length_nil]
  have h := strncpy_all (dst := fresh (['"'].length + 1)) (s := []) (by rw [hf]; simp)
  simp only [List.length_nil] at h
  rw [h]
  simp [Buf.strlen, osip_strncpy, Buf.wrN]

example : osip_strdup_without_quote "\"abc\"".toList (fun n => List.replicate n '#') =
    some ("abc".toList ++ [NUL, NUL, '#']) := by decide +kernel
example : osip_strdup_without_quote "abc".toList (fun n => List.replicate n '#') =
    some ("abc".toList ++ [NUL]) := by decide +kernel

end Osip
