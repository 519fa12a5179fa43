import Verif.Str.PropsTrim

/-!
# Pointers of the header parsers

The parsers work on constant strings. A pointer into a string is the list of bytes from it to the end of
its block; `p + n` is `p.drop n`; of two pointers into a block the one with the longer list is the smaller
one. Reading at the end of a block is undefined (`none`).

The copying functions are used through their contracts, which are proved for the byte-level models:
`clrncpy` by `clrncpy_contract` (from `c40_clrncpy`), `strncpy` by `copy_contract` below. A call outside a contract is undefined.
-/

set_option autoImplicit false

namespace Osip

/-- `*p`. -/
def deref (p : List Char) : Option Char := p.head?

/-- `strchr (p, c)`; `some none` is the null pointer. -/
def cstrchr (c : Char) : List Char → Option (Option (List Char))
  | [] => none
  | d :: t => if d = c then some (some (d :: t)) else if d = NUL then some none else cstrchr c t

/-- The string at `p`. -/
def cstr (p : List Char) : Option Str := if NUL ∈ p then some (p.takeWhile (· ≠ NUL)) else none

/-- `q - p` for two pointers into one block. -/
def pdiff (q p : List Char) : Int := (p.length : Int) - q.length

/-- A fresh block of `n + 1` bytes filled by `osip_clrncpy (block, p, n)`: the string in it. If the
terminator is the last of the `n` bytes, then the blanks before it are not recognised. -/
def clrncpy (p : List Char) (n : Int) : Option Str := do
  let s ← cstr p
  if 0 ≤ n ∧ n ≤ s.length then some (trim (s.take n.toNat))
  else if n = s.length + 1 then some (s.dropWhile isBlank)
  else none

/-- A fresh block of `n + 1` bytes filled by `osip_strncpy (block, p, n)`: the string in it. -/
def strncpy (p : List Char) (n : Int) : Option Str := do
  let s ← cstr p
  if 0 ≤ n then some (s.take n.toNat) else none

/-! ## Lemmas -/

theorem ok_append {a b : Str} (ha : a.Ok) (hb : b.Ok) : Str.Ok (a ++ b) := by
  intro h
  rcases List.mem_append.1 h with h | h
  · exact ha h
  · exact hb h

theorem ok_cons {c : Char} {s : Str} : Str.Ok (c :: s) ↔ c ≠ NUL ∧ s.Ok := by
  simp only [Str.Ok, List.mem_cons, not_or]
  exact ⟨fun h => ⟨Ne.symm h.1, h.2⟩, fun h => ⟨Ne.symm h.1, h.2⟩⟩

theorem ok_append_iff {a b : Str} : Str.Ok (a ++ b) ↔ a.Ok ∧ b.Ok := by
  simp [Str.Ok, not_or]

theorem mem_first {c : Char} {s : Str} (h : c ∈ s) : ∃ a b, s = a ++ c :: b ∧ c ∉ a := by
  induction s with
  | nil => cases h
  | cons d s ih =>
    by_cases hd : d = c
    · subst hd; exact ⟨[], s, rfl, by simp⟩
    · obtain ⟨a, b, rfl, hn⟩ := ih (by simpa [Ne.symm hd] using h)
      exact ⟨d :: a, b, rfl, by simp [hn, Ne.symm hd]⟩

theorem cstr_at {s : Str} (hs : s.Ok) (r : List Char) : cstr (s ++ NUL :: r) = some s := by
  rw [cstr, if_pos (by simp)]
  exact congrArg some (takeWhile_ok hs r)

theorem takeWhile_nul (p : List Char) (h : NUL ∈ p) : ∃ r, p = p.takeWhile (· ≠ NUL) ++ NUL :: r := by
  induction p with
  | nil => cases h
  | cons c p ih =>
    by_cases hc : c = NUL
    · exact ⟨p, by simp [hc]⟩
    · obtain ⟨r, hr⟩ := ih (by simpa [Ne.symm hc] using h)
      refine ⟨r, ?_⟩
      rw [List.takeWhile_cons_of_pos (by simpa using hc), List.cons_append, ← hr]

theorem clrncpy_over {s : Str} (hs : s.Ok) {dst : Buf} (hd : dst.length = s.length + 2) (r : List Char) :
    ∃ d', osip_clrncpy dst (some (s ++ NUL :: r)) (s.length + 1) = some d' ∧ d'.str = s.dropWhile isBlank := by
  unfold osip_clrncpy
  simp only [Nat.succ_ne_zero, if_false, skipBlanks_buf, Option.bind_eq_bind, Option.bind_some]
  have hback : backBlanks (s ++ NUL :: r) ((s.takeWhile isBlank).length : Int) (s.length + 1)
      ((s.length + 1 : Nat) - 1 : Int) = some (some (s.length : Int)) := by
    simp only [backBlanks]
    rw [rd_at _ _ _ (by omega)]
    have : isBlank NUL = false := by decide
    simp [this]
  simp only [hback, Option.bind_some]
  have hsp : s.takeWhile isBlank ++ s.dropWhile isBlank = s := List.takeWhile_append_dropWhile
  generalize s.takeWhile isBlank = w at *
  generalize s.dropWhile isBlank = m at *
  subst hsp
  have hk : (((w ++ m).length : Int) - (w.length : Int) + 1).toNat = (m ++ [NUL]).length := by simp; omega
  rw [hk]
  have hrd : Buf.rdN ((w ++ m) ++ NUL :: r) (w.length : Int) (m ++ [NUL]).length = some (m ++ [NUL]) := by
    have : (w ++ m) ++ NUL :: r = w ++ (m ++ [NUL]) ++ r := by simp
    rw [this]
    exact rdN_at _ _ _ rfl rfl
  have hmok : Str.Ok m := fun h => hs (by simp [h])
  have hl : (w ++ m).length = w.length + m.length := List.length_append
  have hw1 : Buf.wrN dst 0 (m ++ [NUL]) = some (m ++ NUL :: dst.drop (m.length + 1)) := by
    have : dst = [] ++ dst.take (m.length + 1) ++ dst.drop (m.length + 1) := by simp
    conv => lhs; rw [this]
    rw [wrN_at [] _ _ (m ++ [NUL]) (i := 0) rfl (by rw [List.length_take]; simp; omega)]
    simp
  have hw2 : Buf.wr (m ++ NUL :: dst.drop (m.length + 1)) ((m ++ [NUL]).length : Int) NUL =
      some (m ++ NUL :: NUL :: dst.drop (m.length + 2)) := by
    rw [List.drop_eq_getElem_cons (i := m.length + 1) (by omega)]
    have e : ∀ x (l : List Char), m ++ NUL :: x :: l = (m ++ [NUL]) ++ x :: l := by simp
    rw [e, e, wr_at _ _ _ _ rfl]
  simp only [hrd, hw1, hw2, Option.bind_some]
  split
  · next hlt =>
    obtain ⟨b', g1, g2, g3, g4⟩ := padZeros_run (len := (w ++ m).length + 1) (n := (w ++ m).length + 1)
      (b := m ++ NUL :: NUL :: dst.drop (m.length + 2)) (p := ((m ++ [NUL]).length : Int))
      (k := (m ++ [NUL]).length + 1) (by simp) hlt (by simp; omega) (by omega)
    refine ⟨b', g1, ?_⟩
    have : b' = m ++ NUL :: b'.drop (m.length + 1) := by
      have g3' : b'.take (m.length + 1) = m ++ [NUL] := by
        have := congrArg (List.take (m.length + 1)) g3
        simp only [List.take_take, List.length_append, List.length_singleton] at this
        rw [Nat.min_eq_left (by omega)] at this
        rw [this, List.take_append, List.take_of_length_le (by omega)]
        simp
      conv => lhs; rw [← List.take_append_drop (m.length + 1) b', g3']
      simp
    rw [this]
    exact str_at hmok _
  · exact ⟨_, rfl, str_at hmok _⟩

theorem cstr_some {p : List Char} {s : Str} (h : cstr p = some s) : s.Ok ∧ ∃ r, p = s ++ NUL :: r := by
  unfold cstr at h
  split at h
  · next hm =>
    cases h
    refine ⟨?_, takeWhile_nul p hm⟩
    intro hmem
    have := List.all_eq_true.1 (List.all_takeWhile (p := fun c => decide (c ≠ NUL)) (l := p)) NUL hmem
    simp at this
  · cases h

/-- The contract of `osip_clrncpy`. -/
theorem clrncpy_contract {p : List Char} {n : Int} {t : Str} (h : clrncpy p n = some t) {dst : Buf}
    (hd : dst.length = n.toNat + 1) : ∃ d, osip_clrncpy dst (some p) n.toNat = some d ∧ d.str = t := by
  unfold clrncpy at h
  cases hs : cstr p with
  | none => rw [hs] at h; cases h
  | some s =>
    rw [hs] at h
    obtain ⟨hok, r, rfl⟩ := cstr_some hs
    simp only [Option.bind_eq_bind, Option.bind_some] at h
    split at h
    · next hn =>
      cases h
      obtain ⟨d, h1, _, _, h4⟩ := c40_clrncpy hok (len := n.toNat) (by omega) (dst := dst) (by omega) r
      exact ⟨d, h1, h4⟩
    · split at h
      · next hn =>
        cases h
        have : n.toNat = s.length + 1 := by omega
        rw [this] at hd ⊢
        exact clrncpy_over hok hd r
      · cases h

/-- The contract of `osip_strncpy`. -/
theorem copy_contract {p : List Char} {n : Int} {t : Str} (h : strncpy p n = some t) {dst : Buf}
    (hd : dst.length = n.toNat + 1) : ∃ s d, cstr p = some s ∧ osip_strncpy dst 0 s n.toNat = some d ∧ d.str = t := by
  unfold strncpy at h
  cases hs : cstr p with
  | none => rw [hs] at h; cases h
  | some s =>
    rw [hs] at h
    simp only [Option.bind_eq_bind, Option.bind_some] at h
    have hok : Str.Ok s := by
      unfold cstr at hs
      split at hs
      · cases hs
        intro hmem
        have := List.all_eq_true.1 (List.all_takeWhile (p := fun c => decide (c ≠ NUL)) (l := p)) NUL hmem
        simp at this
      · cases hs
    split at h
    · cases h
      obtain ⟨z, hz⟩ : ∃ z, s.take n.toNat ++ List.replicate (n.toNat - s.length) NUL ++ [NUL] = s.take n.toNat ++ NUL :: z := by
        cases hk : n.toNat - s.length with
        | zero => exact ⟨[], by simp⟩
        | succ k => exact ⟨List.replicate k NUL ++ [NUL], by simp [List.replicate_succ]⟩
      have hl : (s.take n.toNat ++ List.replicate (n.toNat - s.length) NUL).length = n.toNat := by
        simp; omega
      refine ⟨s, s.take n.toNat ++ List.replicate (n.toNat - s.length) NUL ++ [NUL], rfl, ?_, ?_⟩
      · unfold osip_strncpy
        have e : dst = [] ++ dst.take n.toNat ++ dst.drop n.toNat := by simp
        have h1 := wrN_at [] (dst.take n.toNat) (dst.drop n.toNat) (s.take n.toNat ++ List.replicate (n.toNat - s.length) NUL)
          (i := 0) rfl (by rw [hl, List.length_take]; omega)
        rw [← e] at h1
        rw [h1]
        simp only [Option.bind_eq_bind, Option.bind_some, List.nil_append]
        obtain ⟨y, hy⟩ : ∃ y, dst.drop n.toNat = [y] := by
          have : (dst.drop n.toNat).length = 1 := by simp; omega
          exact List.length_eq_one_iff.1 this
        rw [hy, wr_at _ _ _ _ (by rw [hl]; simp)]
      · rw [hz]
        refine str_at ?_ _
        intro hm
        exact hok (List.mem_of_mem_take hm)
    · cases h

theorem cstrchr_found {c : Char} {a : Str} (ha : a.Ok) (hc : c ∉ a) (b : List Char) :
    cstrchr c (a ++ c :: b) = some (some (c :: b)) := by
  induction a with
  | nil => simp [cstrchr]
  | cons d a ih =>
    have h1 : d ≠ c := by rintro rfl; exact hc (by simp)
    have h2 : d ≠ NUL := by rintro rfl; exact ha (by simp)
    simp only [List.cons_append, cstrchr, if_neg h1, if_neg h2]
    exact ih (by intro h; apply ha; simp [h]) (by intro h; apply hc; simp [h])

theorem cstrchr_none {c : Char} {a : Str} (ha : a.Ok) (hc : c ∉ a) (hn : c ≠ NUL) (r : List Char) :
    cstrchr c (a ++ NUL :: r) = some none := by
  induction a with
  | nil => simp [cstrchr, Ne.symm hn]
  | cons d a ih =>
    have h1 : d ≠ c := by rintro rfl; exact hc (by simp)
    have h2 : d ≠ NUL := by rintro rfl; exact ha (by simp)
    simp only [List.cons_append, cstrchr, if_neg h1, if_neg h2]
    exact ih (by intro h; apply ha; simp [h]) (by intro h; apply hc; simp [h])

/-- Every search in a string succeeds or gives the null pointer. -/
theorem cstrchr_cases {c : Char} {s : Str} (hs : s.Ok) (hn : c ≠ NUL) (r : List Char) :
    (c ∉ s ∧ cstrchr c (s ++ NUL :: r) = some none) ∨
    ∃ a b, s = a ++ c :: b ∧ c ∉ a ∧ cstrchr c (s ++ NUL :: r) = some (some (c :: b ++ NUL :: r)) := by
  by_cases h : c ∈ s
  · obtain ⟨a, b, rfl, ha⟩ := mem_first h
    right
    refine ⟨a, b, rfl, ha, ?_⟩
    have := cstrchr_found (c := c) (a := a) (by intro h; apply hs; simp [h]) ha (b ++ NUL :: r)
    simpa using this
  · exact .inl ⟨h, cstrchr_none hs h hn r⟩

theorem clrncpy_at {a : Str} (ha : a.Ok) {b : Str} (hb : b.Ok) (r : List Char) {n : Int} (hn : n = a.length) :
    clrncpy (a ++ (b ++ NUL :: r)) n = some (trim a) := by
  have e : a ++ (b ++ NUL :: r) = (a ++ b) ++ NUL :: r := by simp
  rw [clrncpy, e, cstr_at (ok_append ha hb)]
  simp only [Option.bind_eq_bind, Option.bind_some]
  rw [if_pos (by simp; omega), hn]
  simp

theorem strncpy_at {a : Str} (ha : a.Ok) {b : Str} (hb : b.Ok) (r : List Char) {n : Int} (hn : n = a.length) :
    strncpy (a ++ (b ++ NUL :: r)) n = some a := by
  have e : a ++ (b ++ NUL :: r) = (a ++ b) ++ NUL :: r := by simp
  rw [strncpy, e, cstr_at (ok_append ha hb)]
  simp only [Option.bind_eq_bind, Option.bind_some]
  rw [if_pos (by omega), hn]
  simp

theorem clrncpy_end {a : Str} (ha : a.Ok) (r : List Char) {n : Int} (hn : n = a.length + 1) :
    clrncpy (a ++ NUL :: r) n = some (a.dropWhile isBlank) := by
  rw [clrncpy, cstr_at ha]
  simp only [Option.bind_eq_bind, Option.bind_some]
  rw [if_neg (by omega), if_pos hn]

/-- A string without outer blanks. -/
def Trimmed (s : Str) : Prop := trim s = s

end Osip
