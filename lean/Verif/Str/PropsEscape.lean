import Verif.Str.Escape

/-!
# C37, C38: escaping of URI components
-/

set_option autoImplicit false

namespace Osip

/-! ## Specification -/

/-- The value of a hexadecimal digit. -/
def hexValue (c : Char) : Option Nat :=
  if '0' ≤ c ∧ c ≤ '9' then some (c.toNat - '0'.toNat)
  else if 'a' ≤ c ∧ c ≤ 'f' then some (c.toNat - 'a'.toNat + 10)
  else if 'A' ≤ c ∧ c ≤ 'F' then some (c.toNat - 'A'.toNat + 10)
  else none

/-- `sscanf` reads two hexadecimal digits correctly. -/
def SscanfOk (sscanf : Str → Option Nat) : Prop :=
  ∀ (c d : Char) (r : Str) (x y : Nat), hexValue c = some x → hexValue d = some y →
    sscanf (c :: d :: r) = some (16 * x + y)

/-- `e` is an encoding of `s`: every character is itself, if allowed, or a `%` and the two digits of its
code. -/
inductive Encodes (allowed : Char → Prop) : Str → Str → Prop
  | nil : Encodes allowed [] []
  | plain {c : Char} {s e : Str} : allowed c → Encodes allowed s e → Encodes allowed (c :: s) (c :: e)
  | escaped {c : Char} {s e : Str} {h l : Char} {x y : Nat} : hexValue h = some x → hexValue l = some y →
      c.toNat = 16 * x + y → Encodes allowed s e → Encodes allowed (c :: s) ('%' :: h :: l :: e)

/-- Letters and digits, and the given marks. -/
def AllowedIn (marks : Str) (c : Char) : Prop :=
  ('a' ≤ c ∧ c ≤ 'z') ∨ ('A' ≤ c ∧ c ≤ 'Z') ∨ ('0' ≤ c ∧ c ≤ '9') ∨ c ∈ marks

/-- What is left in the buffer, for any `sscanf`. -/
def unescaped (sscanf : Str → Option Nat) : Str → Str
  | [] => []
  | '%' :: a :: b :: r =>
    match sscanf (a :: b :: r) with
    | none => []
    | some hex => Char.ofNat (hex % 256) ::
        (if isHex b then unescaped sscanf r else unescaped sscanf (b :: r))
  | c :: r => if c = '%' then [] else c :: unescaped sscanf r
termination_by s => s.length

/-! ## Unescaping -/

theorem unescaped_plain (sscanf : Str → Option Nat) {c : Char} (h : c ≠ '%') (r : Str) :
    unescaped sscanf (c :: r) = c :: unescaped sscanf r := by
  rw [unescaped.eq_3]
  · simp [h]
  · intros; simp_all

theorem unescaped_length (sscanf : Str → Option Nat) (s : Str) :
    (unescaped sscanf s).length ≤ s.length := by
  induction s using unescaped.induct sscanf with
  | case1 => simp [unescaped]
  | case2 a b r h => simp [unescaped, h]
  | case3 a b r hex h ih1 ih2 =>
    simp only [unescaped, h, List.length_cons] at ih2 ⊢
    split <;> omega
  | case4 r h => rw [unescaped.eq_3 _ _ _ h]; simp
  | case5 c r h hc ih => rw [unescaped.eq_3 _ _ _ h, if_neg hc]; simp; exact ih

theorem hexValue_isHex {c : Char} {x : Nat} (h : hexValue c = some x) : isHex c = true ∧ x < 16 := by
  unfold hexValue at h
  unfold isHex
  have e0 : '0'.toNat = 48 := rfl
  have e9 : '9'.toNat = 57 := rfl
  have ea : 'a'.toNat = 97 := rfl
  have ef : 'f'.toNat = 102 := rfl
  have eA : 'A'.toNat = 65 := rfl
  have eF : 'F'.toNat = 70 := rfl
  have hle : ∀ a b : Char, a ≤ b ↔ a.toNat ≤ b.toNat := fun a b => Iff.rfl
  simp only [hle, e0, e9, ea, ef, eA, eF, Bool.or_eq_true, Bool.and_eq_true, decide_eq_true_eq] at h ⊢
  split at h
  · simp at h; omega
  · split at h
    · simp at h; omega
    · split at h
      · simp at h; omega
      · simp at h

/-- The state of the loop: `d` has been written, the junk `j` read, `s` is still to be read. -/
theorem unescapeLoop_run (sscanf : Str → Option Nat) (m : Nat) : ∀ {d j s r : List Char} {n alloc : Nat}
    {ptr index : Int}, s.length ≤ m → Str.Ok s → alloc = s.length + 1 → ptr = d.length + j.length →
    index = d.length → s.length + 1 ≤ n →
    ∃ j', unescapeLoop sscanf n (d ++ (j ++ (s ++ NUL :: r))) alloc ptr index =
      some (d ++ (unescaped sscanf s ++ (j' ++ NUL :: r)), ((d.length + (unescaped sscanf s).length : Nat) : Int)) ∧
      j'.length + (unescaped sscanf s).length = j.length + s.length := by
  induction m with
  | zero =>
    intro d j s r n alloc ptr index hm hs ha hp hi hn
    have : s = [] := List.length_eq_zero_iff.1 (by omega)
    subst this
    obtain ⟨n, rfl⟩ : ∃ k, n = k + 1 := ⟨n - 1, by simp at hn; omega⟩
    refine ⟨j, ?_, by simp [unescaped]⟩
    subst ha
    simp [unescapeLoop, unescaped, hi]
  | succ m ih =>
    intro d j s r n alloc ptr index hm hs ha hp hi hn
    obtain ⟨n, rfl⟩ : ∃ k, n = k + 1 := ⟨n - 1, by omega⟩
    cases s with
    | nil => exact ih (by simp) hs ha hp hi hn
    | cons c s =>
      have hs' : Str.Ok s := by intro h; apply hs; simp [h]
      simp only [List.length_cons] at hm ha hn
      have hrd : Buf.rd (d ++ (j ++ (c :: s ++ NUL :: r))) ptr = some c := by
        rw [← List.append_assoc, List.cons_append]
        exact rd_at _ _ _ (by simp [hp])
      have hal : alloc - 1 = s.length + 1 := by omega
      -- writing one byte at `index`, after `k` more bytes `w` have been read
      have hwr : ∀ (w t : List Char) (x : Char), w ≠ [] → ∃ j2, j2.length + 1 = j.length + w.length ∧
          Buf.wr (d ++ (j ++ (w ++ (t ++ NUL :: r)))) index x = some ((d ++ [x]) ++ (j2 ++ (t ++ NUL :: r))) := by
        intro w t x hw
        cases hjw : j ++ w with
        | nil => simp at hjw; exact absurd hjw.2 hw
        | cons y j2 =>
          refine ⟨j2, ?_, ?_⟩
          · have := congrArg List.length hjw
            simp at this; omega
          · have : d ++ (j ++ (w ++ (t ++ NUL :: r))) = d ++ y :: (j2 ++ (t ++ NUL :: r)) := by
              rw [← List.append_assoc j, hjw]; simp
            rw [this, wr_at d y x _ hi]; simp
      by_cases hc : c = '%'
      · subst hc
        simp only [unescapeLoop, hal, Nat.add_eq_zero_iff, Nat.one_ne_zero, and_false, if_false, hrd,
          Option.bind_eq_bind, Option.bind_some, if_true]
        match s, hs', hm, hn, hrd, hal with
        | [], _, _, _, _, _ =>
          refine ⟨j ++ ['%'], ?_, by simp [unescaped]⟩
          simp [unescaped, hi]
        | [a], _, _, _, _, _ =>
          refine ⟨j ++ ['%', a], ?_, by simp [unescaped]⟩
          simp [unescaped, hi]
        | a :: b :: t, hs', hm, hn, hrd, hal =>
          have hlen : (a :: b :: t).length + 1 > 2 := by simp
          simp only [hlen, if_true]
          have e1 : d ++ (j ++ ('%' :: (a :: b :: t) ++ NUL :: r)) = (d ++ (j ++ ['%'])) ++ ((a :: b :: t) ++ NUL :: r) := by simp
          have hsl : Buf.strlen (d ++ (j ++ ('%' :: (a :: b :: t) ++ NUL :: r))) (ptr + 1) = some (a :: b :: t).length := by
            rw [e1]; exact strlen_at _ hs' _ (by simp [hp]; omega)
          have hrn : Buf.rdN (d ++ (j ++ ('%' :: (a :: b :: t) ++ NUL :: r))) (ptr + 1) (a :: b :: t).length = some (a :: b :: t) := by
            rw [e1, ← List.append_assoc]; exact rdN_at _ _ _ (by simp [hp]; omega) rfl
          simp only [hsl, hrn, Option.bind_some]
          cases hsc : sscanf (a :: b :: t) with
          | none =>
            refine ⟨j ++ '%' :: a :: b :: t, ?_, ?_⟩
            · simp [unescaped, hsc, hi]
            · simp [unescaped, hsc]
          | some hex =>
            have hr2 : Buf.rd (d ++ (j ++ ('%' :: (a :: b :: t) ++ NUL :: r))) (ptr + 2) = some b := by
              have : d ++ (j ++ ('%' :: (a :: b :: t) ++ NUL :: r)) = (d ++ (j ++ ['%', a])) ++ b :: (t ++ NUL :: r) := by simp
              rw [this]; exact rd_at _ _ _ (by simp [hp]; omega)
            simp only [hr2, Option.bind_some]
            have hb : b ≠ NUL := by intro h; apply hs'; simp [h]
            simp only [List.length_cons] at hm hn hal
            by_cases hx : isHex b = true
            · obtain ⟨j2, hj2, hw⟩ := hwr ['%', a, b] t (Char.ofNat (hex % 256)) (by simp)
              have e2 : d ++ (j ++ ('%' :: (a :: b :: t) ++ NUL :: r)) = d ++ (j ++ (['%', a, b] ++ (t ++ NUL :: r))) := by simp
              rw [e2, hw]
              simp only [Option.bind_some, ne_eq, hb, not_false_eq_true, hx, and_self, if_true]
              obtain ⟨j3, g1, g2⟩ := ih (d := d ++ [Char.ofNat (hex % 256)]) (j := j2) (s := t) (r := r) (n := n)
                (alloc := (a :: b :: t).length + 1 - 2) (ptr := ptr + 3) (index := index + 1) (by omega)
                (by intro h; apply hs'; simp [h]) (by simp) (by simp at hj2 ⊢; omega) (by simp [hi]) (by omega)
              rw [g1]
              have hu : unescaped sscanf ('%' :: a :: b :: t) = Char.ofNat (hex % 256) :: unescaped sscanf t := by
                rw [unescaped.eq_2]; simp [hsc, hx]
              refine ⟨j3, ?_, ?_⟩
              · rw [hu]; simp; omega
              · rw [hu]; simp at hj2 ⊢; omega
            · obtain ⟨j2, hj2, hw⟩ := hwr ['%', a] (b :: t) (Char.ofNat (hex % 256)) (by simp)
              have e2 : d ++ (j ++ ('%' :: (a :: b :: t) ++ NUL :: r)) = d ++ (j ++ (['%', a] ++ ((b :: t) ++ NUL :: r))) := by simp
              rw [e2, hw]
              simp only [Option.bind_some, hx, and_false, if_false]
              obtain ⟨j3, g1, g2⟩ := ih (d := d ++ [Char.ofNat (hex % 256)]) (j := j2) (s := b :: t) (r := r) (n := n)
                (alloc := (a :: b :: t).length + 1 - 1) (ptr := ptr + 2) (index := index + 1) (by simp; omega)
                (by intro h; apply hs'; simp at h ⊢; exact .inr h) (by simp) (by simp at hj2 ⊢; omega) (by simp [hi]) (by simp; omega)
              rw [g1]
              have hu : unescaped sscanf ('%' :: a :: b :: t) = Char.ofNat (hex % 256) :: unescaped sscanf (b :: t) := by
                rw [unescaped.eq_2]; simp [hsc, hx]
              refine ⟨j3, ?_, ?_⟩
              · rw [hu]; simp; omega
              · rw [hu]; simp at hj2 g2 ⊢; omega
      · simp only [unescapeLoop, hal, Nat.add_eq_zero_iff, Nat.one_ne_zero, and_false, if_false, hrd,
          Option.bind_eq_bind, Option.bind_some, hc]
        obtain ⟨j2, hj2, hw⟩ := hwr [c] s c (by simp)
        have e2 : d ++ (j ++ (c :: s ++ NUL :: r)) = d ++ (j ++ ([c] ++ (s ++ NUL :: r))) := by simp
        rw [e2, hw]
        simp only [Option.bind_some]
        obtain ⟨j3, g1, g2⟩ := ih (d := d ++ [c]) (j := j2) (s := s) (r := r) (n := n) (alloc := s.length + 1)
          (ptr := ptr + 1) (index := index + 1) (by omega) hs' rfl (by simp at hj2 ⊢; omega) (by simp [hi]) (by omega)
        rw [g1, unescaped_plain _ hc]
        refine ⟨j3, by simp; omega, by simp at hj2 ⊢; omega⟩

theorem unescape_run (sscanf : Str → Option Nat) {s : Str} (hs : s.Ok) (r : List Char) :
    ∃ u : List Char, u.length = s.length + 1 ∧ uri_unescape sscanf (s ++ NUL :: r) = some (u ++ r) ∧
      ∃ z, u ++ r = unescaped sscanf s ++ NUL :: z := by
  have hl := strlen_at [] hs r (i := 0) rfl
  simp only [List.nil_append] at hl
  obtain ⟨j, h1, h2⟩ := unescapeLoop_run sscanf s.length (d := []) (j := []) (s := s) (r := r)
    (n := s.length + 1 + 1) (alloc := s.length + 1) (ptr := 0) (index := 0) (Nat.le_refl _) hs rfl rfl rfl (by omega)
  simp only [List.nil_append, List.length_nil, Nat.zero_add] at h1 h2
  simp only [uri_unescape, hl, Option.bind_eq_bind, Option.bind_some, h1]
  cases hj : j ++ [NUL] with
  | nil => simp at hj
  | cons y z =>
    have e : unescaped sscanf s ++ (j ++ NUL :: r) = unescaped sscanf s ++ y :: (z ++ r) := by
      have : j ++ NUL :: r = (j ++ [NUL]) ++ r := by simp
      rw [this, hj]; simp
    rw [e, wr_at _ _ _ _ rfl]
    have := congrArg List.length hj
    simp at this
    exact ⟨unescaped sscanf s ++ NUL :: z, by simp; omega, by simp, z ++ r, by simp⟩

/-- **C38**. For every string, any bytes after its terminator and any results of `sscanf`,
`__osip_uri_unescape` ends, accesses only the string and its terminator, and leaves a string which is
not longer. -/
theorem c38_unescape (sscanf : Str → Option Nat) {s : Str} (hs : s.Ok) (r : List Char) :
    ∃ u : List Char, u.length = s.length + 1 ∧ uri_unescape sscanf (s ++ NUL :: r) = some (u ++ r) ∧
      (Buf.str (u ++ r)).length ≤ s.length := by
  obtain ⟨u, h1, h2, z, h3⟩ := unescape_run sscanf hs r
  refine ⟨u, h1, h2, ?_⟩
  rw [h3]
  have hle : ∀ (a b : Str), (Buf.str (a ++ NUL :: b)).length ≤ a.length := by
    intro a
    induction a with
    | nil => intro b; simp [Buf.str]
    | cons c a ih =>
      intro b
      simp only [Buf.str, List.cons_append, List.takeWhile_cons]
      split
      · have := ih b
        simp only [Buf.str] at this
        simp only [List.length_cons]; omega
      · simp
  exact Nat.le_trans (hle _ _) (unescaped_length sscanf s)

theorem unescaped_encodes {sscanf : Str → Option Nat} (hsc : SscanfOk sscanf) {allowed : Char → Prop}
    (hpc : ¬ allowed '%') {s e : Str} (h : Encodes allowed s e) : unescaped sscanf e = s := by
  induction h with
  | nil => rw [unescaped]
  | plain hc _ ih =>
    rw [unescaped_plain _ (fun hx => hpc (hx ▸ hc)), ih]
  | @escaped c s e h l x y hh hl hv _ ih =>
    have h1 := hsc h l e x y hh hl
    have h2 := hexValue_isHex hl
    have h3 := hexValue_isHex hh
    rw [unescaped.eq_2, h1]
    simp only [h2.1, if_true, ih]
    congr 1
    rw [← hv, Nat.mod_eq_of_lt (by omega), Char.ofNat_toNat]

/-! ## Escaping -/

theorem allowedIn_iff (marks : Str) (c : Char) :
    (isAlphanum c || marks.contains c) = true ↔ AllowedIn marks c := by
  simp [isAlphanum, AllowedIn, or_assoc]

theorem hexDigit_value {n : Nat} (h : n < 16) : hexValue (hexDigit n) = some n := by
  have : ∀ n : Fin 16, hexValue (hexDigit n) = some n.val := by decide
  exact this ⟨n, h⟩

theorem hexDigit_ne_nul {n : Nat} (h : n < 16) : hexDigit n ≠ NUL := by
  have : ∀ n : Fin 16, hexDigit n ≠ NUL := by decide
  exact this ⟨n, h⟩

/-- The encoding written. -/
def escChar (dfn : Str) (c : Char) : Str :=
  if isAlphanum c || dfn.contains c then [c] else ['%', hexDigit (c.toNat / 16), hexDigit (c.toNat % 16)]

theorem escChar_length (dfn : Str) (c : Char) : (escChar dfn c).length ≤ 3 := by
  unfold escChar; split <;> simp

/-- Invariant of the loop: `newlen` is the room the rest needs at least, and the block has it. -/
theorem escapeLoop_run {dfn : Str} {fresh : Nat → Buf} (hf : ∀ n, (fresh n).length = n) (s : Str) :
    ∀ {p q : List Char} {alloc newlen : Nat}, p.length + 3 * s.length + 3 < 2147483647 →
      p.length + q.length = alloc → newlen ≤ alloc → p.length + s.length + 1 = newlen →
      ∃ q', escapeLoop dfn fresh s (p ++ q) alloc newlen p.length =
        some (p ++ (s.flatMap (escChar dfn) ++ q'), p.length + (s.flatMap (escChar dfn)).length) ∧ q' ≠ [] := by
  induction s with
  | nil =>
    intro p q alloc newlen h1 h2 h3 h4
    refine ⟨q, by simp [escapeLoop], ?_⟩
    rintro rfl
    simp at h2 h4; omega
  | cons c s ih =>
    intro p q alloc newlen h1 h2 h3 h4
    simp only [List.length_cons] at h1 h4
    simp only [escapeLoop, List.flatMap_cons]
    rw [if_neg (by omega)]
    by_cases ha : (isAlphanum c || dfn.contains c) = true
    · have e : escChar dfn c = [c] := by simp only [escChar, ha, if_true]
      simp only [ha, if_true]
      cases q with
      | nil => simp at h2; omega
      | cons y q =>
        rw [wr_at p y c q rfl]
        simp only [Option.bind_eq_bind, Option.bind_some]
        obtain ⟨q', g1, g2⟩ := ih (p := p ++ [c]) (q := q) (alloc := alloc) (newlen := newlen) (by simp; omega)
          (by simp at h2 ⊢; omega) h3 (by simp; omega)
        have e2 : p ++ c :: q = (p ++ [c]) ++ q := by simp
        have e3 : p.length + 1 = (p ++ [c]).length := by simp
        rw [e2, e3, g1, e]
        refine ⟨q', by simp; omega, g2⟩
    · have e : escChar dfn c = ['%', hexDigit (c.toNat / 16), hexDigit (c.toNat % 16)] := by
        simp only [escChar, ha]; rfl
      simp only [ha, Bool.false_eq_true, if_false]
      have hgrow : ∃ q₂, (if decide (newlen + 2 > alloc) = true then Buf.realloc (p ++ q) (alloc * 2) fresh else p ++ q) = p ++ q₂ ∧
          p.length + q₂.length = (if decide (newlen + 2 > alloc) = true then alloc * 2 else alloc) := by
        by_cases hg : newlen + 2 > alloc
        · refine ⟨q ++ fresh (alloc * 2 - (p ++ q).length), ?_, ?_⟩
          · simp only [hg, decide_true, if_true, Buf.realloc]
            rw [List.take_of_length_le (by simp; omega)]
            simp
          · simp only [hg, decide_true, if_true, List.length_append, hf]
            omega
        · refine ⟨q, by simp [hg], by simp [hg]; exact h2⟩
      obtain ⟨q₂, hq1, hq2⟩ := hgrow
      rw [hq1]
      have hroom : newlen + 2 ≤ (if decide (newlen + 2 > alloc) = true then alloc * 2 else alloc) := by
        split
        · next h => simp at h; omega
        · next h => simp at h; omega
      generalize (if decide (newlen + 2 > alloc) = true then alloc * 2 else alloc) = alloc₂ at *
      have h4q : 4 ≤ q₂.length := by omega
      have e2 : p ++ q₂ = p ++ q₂.take 4 ++ q₂.drop 4 := by simp
      have hw : Buf.wrN (p ++ q₂) (p.length : Int) (sprintfHex c) = some (p ++ sprintfHex c ++ q₂.drop 4) := by
        conv => lhs; rw [e2]
        exact wrN_at _ _ _ _ rfl (by rw [List.length_take]; simp [sprintfHex]; omega)
      simp only [hw, Option.bind_eq_bind, Option.bind_some]
      obtain ⟨q', g1, g2⟩ := ih (p := p ++ escChar dfn c) (q := NUL :: q₂.drop 4) (alloc := alloc₂)
        (newlen := newlen + 2) (by rw [e]; simp; omega) (by rw [e]; simp; omega) hroom (by rw [e]; simp; omega)
      have e3 : p ++ sprintfHex c ++ q₂.drop 4 = (p ++ escChar dfn c) ++ (NUL :: q₂.drop 4) := by
        rw [e]; simp [sprintfHex]
      have e4 : p.length + 3 = (p ++ escChar dfn c).length := by rw [e]; simp
      rw [e3, e4, g1]
      refine ⟨q', by simp; omega, g2⟩

theorem esc_encodes {dfn : Str} {s : Str} (hb : ∀ c ∈ s, c.toNat < 256) :
    Encodes (AllowedIn dfn) s (s.flatMap (escChar dfn)) := by
  induction s with
  | nil => exact .nil
  | cons c s ih =>
    have ih := ih (fun c hc => hb c (by simp [hc]))
    have hc := hb c (by simp)
    simp only [List.flatMap_cons]
    unfold escChar
    split
    · next h => exact .plain ((allowedIn_iff dfn c).1 h) ih
    · exact .escaped (hexDigit_value (by omega)) (hexDigit_value (by omega)) (by omega) ih

theorem esc_ok {dfn : Str} {s : Str} (hs : s.Ok) (hb : ∀ c ∈ s, c.toNat < 256) :
    Str.Ok (s.flatMap (escChar dfn)) := by
  intro hm
  rw [List.mem_flatMap] at hm
  obtain ⟨c, hc, hm⟩ := hm
  have h1 := hexDigit_ne_nul (n := c.toNat / 16) (by have := hb c hc; omega)
  have h2 := hexDigit_ne_nul (n := c.toNat % 16) (by omega)
  have h3 : NUL ≠ '%' := by decide
  unfold escChar at hm
  split at hm
  · simp at hm; exact hs (hm ▸ hc)
  · simp [h1.symm, h2.symm, h3] at hm

/-- **C37**. For every byte string, escaping with a set of marks which does not contain `%` stays
inside the memory it allocates, whatever that contains; the result consists of allowed characters and
`%XX` triplets; unescaping it gives the string back. -/
theorem c37_escape_any {marks : Str} (hm : ¬ AllowedIn marks '%') {s : Str} (hs : s.Ok)
    (hb : ∀ c ∈ s, c.toNat < 256) (hl : s.length < 700000000) {fresh : Nat → Buf}
    (hf : ∀ n, (fresh n).length = n) {sscanf : Str → Option Nat} (hsc : SscanfOk sscanf) :
    ∃ b, uri_escape s marks fresh = some b ∧ Encodes (AllowedIn marks) s b.str ∧
      ∃ b', uri_unescape sscanf b = some b' ∧ b'.str = s := by
  obtain ⟨q, h1, h2⟩ := escapeLoop_run (dfn := marks) hf s (p := []) (q := fresh (s.length + 1)) (alloc := s.length + 1)
    (newlen := s.length + 1) (by simp; omega) (by simp [hf]) (Nat.le_refl _) (by simp)
  simp only [List.nil_append, List.length_nil, Nat.zero_add] at h1
  cases q with
  | nil => exact absurd rfl h2
  | cons y q =>
    have hrun : uri_escape s marks fresh = some (s.flatMap (escChar marks) ++ NUL :: q) := by
      simp only [uri_escape, h1, Option.bind_eq_bind, Option.bind_some]
      exact wr_at _ _ _ _ rfl
    have hok := esc_ok (dfn := marks) hs hb
    refine ⟨_, hrun, by rw [str_at hok]; exact esc_encodes hb, ?_⟩
    obtain ⟨u, g1, g2, z, g3⟩ := unescape_run sscanf hok q
    refine ⟨_, g2, ?_⟩
    rw [g3, unescaped_encodes hsc hm (esc_encodes hb), str_at hs]

/-- The characters which RFC 3261 allows unescaped in a user name, a password, a URI parameter and a
URI header. -/
def componentMarks : List (Str × String) :=
  [(userinfo_def, "-_.!~*'()&=+$,;?/"), (password_def, "-_.!~*'()&=+$,"),
   (uri_param_def, "-_.!~*'()[]/:&+$"), (header_param_def, "-_.!~*'()[]/?:+$")]

/-- **C37** for the four kinds of components, with the characters RFC 3261 section 25.1 allows in them. -/
theorem c37_escape {dfn : Str} {marks : String} (hd : (dfn, marks) ∈ componentMarks) {s : Str}
    (hs : s.Ok) (hb : ∀ c ∈ s, c.toNat < 256) (hl : s.length < 700000000) {fresh : Nat → Buf}
    (hf : ∀ n, (fresh n).length = n) {sscanf : Str → Option Nat} (hsc : SscanfOk sscanf) :
    ∃ b, uri_escape s dfn fresh = some b ∧ Encodes (AllowedIn marks.toList) s b.str ∧
      ∃ b', uri_unescape sscanf b = some b' ∧ b'.str = s := by
  have hno : ¬ AllowedIn dfn '%' := by
    rw [← allowedIn_iff]
    simp only [componentMarks, List.mem_cons, Prod.mk.injEq, List.not_mem_nil, or_false] at hd
    rcases hd with ⟨rfl, _⟩ | ⟨rfl, _⟩ | ⟨rfl, _⟩ | ⟨rfl, _⟩ <;> decide
  have he : marks.toList = dfn := by
    simp only [componentMarks, List.mem_cons, Prod.mk.injEq, List.not_mem_nil, or_false] at hd
    rcases hd with ⟨rfl, rfl⟩ | ⟨rfl, rfl⟩ | ⟨rfl, rfl⟩ | ⟨rfl, rfl⟩ <;> rfl
  rw [he]
  exact c37_escape_any hno hs hb hl hf hsc

/-! ## Examples -/

/-- A `sscanf` which reads exactly two digits. -/
def sscanf2 : Str → Option Nat
  | c :: d :: _ => do return 16 * (← hexValue c) + (← hexValue d)
  | _ => none

theorem sscanf2_ok : SscanfOk sscanf2 := by
  intro c d r x y h1 h2
  simp [sscanf2, h1, h2]

example : (uri_escape "a b;%".toList userinfo_def (fun n => List.replicate n '#')).map Buf.str =
    some "a%20b;%25".toList := by decide +kernel
example : (uri_unescape sscanf2 (Str.buf "a%20b;%25".toList)).map Buf.str = some "a b;%".toList := by
  decide +kernel
example : (uri_unescape sscanf2 (Str.buf "ab%4".toList)).map Buf.str = some "ab".toList := by
  decide +kernel

end Osip
