import Verif.Parse.Headers
import Verif.Parse.PropsStart

/-!
# C75: header lines
-/

set_option autoImplicit false

namespace Osip

variable {σ : Type}

/-! ## Specification -/

/-- The value of a header line with the text `b` behind the colon. -/
def lineValue (b : Str) : Option Str := if b = [] then none else some (trim b)

/-- A header part, the headers in it and the text from the empty line on (nothing if the empty line is missing). -/
inductive HeaderPart : Str → List (Str × Option Str) → Str → Prop
  | missing : HeaderPart [] [] []
  | blank {c : Char} (t : Str) : c ∈ ['\r', '\n'] → HeaderPart (c :: t) [] (c :: t)
  | line {a b e rest tail : Str} {calls : List (Str × Option Str)} : a ≠ [] → (∀ c ∈ a, c ≠ ':' ∧ c ≠ '\r' ∧ c ≠ '\n') →
      (∀ c ∈ b, c ≠ '\r' ∧ c ≠ '\n') → EndOfLine e rest → rest.head? ≠ some ' ' → rest.head? ≠ some '\t' →
      HeaderPart rest calls tail → HeaderPart (a ++ ':' :: (b ++ e)) ((trim a, lineValue b) :: calls) tail

/-- All headers are handed over, in order, up to the first one which is not accepted. -/
def applyAll (set : σ → Str → Option Str → Option (Int × σ)) : σ → List (Str × Option Str) → Option (Int × σ)
  | st, [] => some (OSIP_SUCCESS, st)
  | st, (a, b) :: l =>
    match set st a b with
    | none => none
    | some (i, st) => if i ≠ 0 then some (OSIP_SYNTAXERROR, st) else applyAll set st l

/-! ## One line -/

theorem crlfSkip {c : Char} (h1 : ¬ (c = CR ∨ c = LF)) (h2 : c ≠ NUL) (t : List Char) (i : Nat) :
    find_next_crlf (c :: t) i = find_next_crlf t (i + 1) := by
  conv => lhs; rw [find_next_crlf.eq_def]
  simp only [h1, h2, if_false]

theorem crlfRun {a e rest : Str} (ha : ∀ c ∈ a, c ≠ '\r' ∧ c ≠ '\n') (hao : a.Ok) (he : EndOfLine e rest) (r : List Char) (i : Nat) :
    find_next_crlf (a ++ e ++ NUL :: r) i =
      some (if rest.head? = some ' ' ∨ rest.head? = some '\t' then .continued else .at (i + a.length + (e.length - rest.length))) := by
  induction a generalizing i with
  | nil =>
    cases he with
    | crlf =>
      cases rest with
      | nil => simp [find_next_crlf, CR, LF, show NUL ≠ ' ' by decide, show NUL ≠ '\t' by decide]
      | cons c t =>
        simp only [find_next_crlf, List.nil_append, List.cons_append, CR, LF, true_or, if_true, and_self, List.head?_cons, Option.some.injEq]
        split <;> simp
    | lf =>
      cases rest with
      | nil => simp [find_next_crlf, CR, LF, show NUL ≠ ' ' by decide, show NUL ≠ '\t' by decide]
      | cons c t =>
        simp [find_next_crlf, List.nil_append, List.cons_append, CR, LF]
        split <;> simp
    | cr _ h =>
      cases rest with
      | nil => simp [find_next_crlf, CR, LF, show NUL ≠ ' ' by decide, show NUL ≠ '\t' by decide, show NUL ≠ '\n' by decide]
      | cons c t =>
        have hc : c ≠ '\n' := by simpa using h
        simp only [find_next_crlf, List.nil_append, List.cons_append, CR, LF, true_or, if_true, hc, and_false, if_false, List.head?_cons,
          Option.some.injEq]
        split <;> simp
  | cons c a ih =>
    have hc := ha c (by simp)
    rw [List.cons_append, List.cons_append, crlfSkip (fun h => h.elim hc.1 hc.2) (ok_cons.1 hao).1,
      ih (fun x hx => ha x (by simp [hx])) (ok_cons.1 hao).2]
    split
    · rfl
    · simp; omega

theorem crlfStr {s : Str} (hs : s.Ok) (r : List Char) (i : Nat) :
    find_next_crlf (s ++ NUL :: r) i = some .syntaxError ∨
      ∃ a e rest, s = a ++ e ∧ (∀ c ∈ a, c ≠ '\r' ∧ c ≠ '\n') ∧ EndOfLine e rest := by
  induction s generalizing i with
  | nil => left; simp [find_next_crlf, show ¬ (NUL = CR ∨ NUL = LF) by decide]
  | cons c s ih =>
    by_cases h : c = CR ∨ c = LF
    · obtain ⟨rest, he⟩ := eol_of h s
      exact .inr ⟨[], c :: s, rest, rfl, by simp, he⟩
    · rcases ih (ok_cons.1 hs).2 (i + 1) with k | ⟨a, e, rest, rfl, ha, he⟩
      · left; rw [List.cons_append, crlfSkip h (ok_cons.1 hs).1, k]
      · refine .inr ⟨c :: a, e, rest, rfl, ?_, he⟩
        intro x hx
        rcases List.mem_cons.1 hx with rfl | hx
        · exact ⟨fun k => h (.inl k), fun k => h (.inr k)⟩
        · exact ha x hx

theorem eol_split {e rest : Str} (he : EndOfLine e rest) :
    ∃ p, e = p ++ rest ∧ ((p.length = 1 ∧ (p.head? = some CR ∨ p.head? = some LF)) ∨ p = [CR, LF]) := by
  cases he with
  | crlf => exact ⟨[CR, LF], rfl, .inr rfl⟩
  | lf => exact ⟨[LF], rfl, .inl ⟨rfl, .inr rfl⟩⟩
  | cr => exact ⟨[CR], rfl, .inl ⟨rfl, .inl rfl⟩⟩

theorem headerValue_run {a b e rest : Str} (ha0 : a ≠ []) (hb : ∀ c ∈ b, c ≠ '\r' ∧ c ≠ '\n') (hbo : b.Ok) (heo : e.Ok)
    (he : EndOfLine e rest) (r : List Char) {k : Nat} (hk : k = (a ++ ':' :: b).length + (e.length - rest.length)) :
    headerValue (a ++ ':' :: (b ++ e) ++ NUL :: r) (':' :: (b ++ e) ++ NUL :: r) k = some (lineValue b) := by
  obtain ⟨p, rfl, hp⟩ := eol_split he
  have hal : 0 < a.length := List.length_pos_iff.2 ha0
  have hk' : k = a.length + b.length + 1 + p.length := by rw [hk]; simp; omega
  have hp1 : 1 ≤ p.length ∧ p.length ≤ 2 := by
    rcases hp with ⟨h, _⟩ | rfl
    · omega
    · simp
  unfold headerValue
  rw [if_neg (by omega)]
  have hpd : pdiff (':' :: (b ++ (p ++ rest)) ++ NUL :: r) (a ++ ':' :: (b ++ (p ++ rest)) ++ NUL :: r) = a.length := by
    simp [pdiff]
  obtain ⟨c, hc, hcc⟩ : ∃ c, deref ((a ++ ':' :: (b ++ (p ++ rest)) ++ NUL :: r).drop (k - 2)) = some c ∧
      ((if c = CR ∨ c = LF then (k : Int) - 2 else (k : Int) - 1) = a.length + b.length + 1) := by
    rcases hp with ⟨h1, h2⟩ | rfl
    · have hd : ∃ x, (':' :: b).getLast? = some x ∧ x ≠ CR ∧ x ≠ LF := by
        cases hb' : b.getLast? with
        | none =>
          have : b = [] := by simpa using hb'
          subst this
          exact ⟨':', rfl, by decide, by decide⟩
        | some x =>
          refine ⟨x, by rw [List.getLast?_cons, hb']; rfl, ?_⟩
          exact hb x (List.mem_of_getLast? hb')
      obtain ⟨x, hx, hx1, hx2⟩ := hd
      obtain ⟨y, hy⟩ := List.getLast?_eq_some_iff.1 hx
      refine ⟨x, ?_, ?_⟩
      · have e0 : a ++ ':' :: (b ++ (p ++ rest)) ++ NUL :: r = (a ++ y) ++ x :: (p ++ rest ++ NUL :: r) := by
          have : a ++ ':' :: (b ++ (p ++ rest)) ++ NUL :: r = a ++ (':' :: b) ++ (p ++ rest ++ NUL :: r) := by simp
          rw [this, hy]; simp
        have hl : (':' :: b).length = y.length + 1 := by rw [hy]; simp
        simp only [List.length_cons] at hl
        rw [e0, show k - 2 = (a ++ y).length by simp; omega, drop_len]
        rfl
      · rw [if_neg (fun h => h.elim hx1 hx2)]; omega
    · refine ⟨CR, ?_, ?_⟩
      · have e0 : a ++ ':' :: (b ++ ([CR, LF] ++ rest)) ++ NUL :: r = (a ++ ':' :: b) ++ CR :: (LF :: rest ++ NUL :: r) := by simp
        rw [e0, show k - 2 = (a ++ ':' :: b).length by simp at hk' ⊢; omega, drop_len]
        rfl
      · rw [if_pos (.inl rfl)]; simp at hk'; omega
  rw [hc]
  simp only [Option.bind_eq_bind, Option.bind_some, hcc, hpd]
  unfold lineValue
  by_cases hb0 : b = []
  · subst hb0; rw [if_pos (by simp; omega)]; rfl
  · have : 0 < b.length := List.length_pos_iff.2 hb0
    rw [if_neg (by omega), if_neg hb0]
    have e1 : (':' :: (b ++ (p ++ rest)) ++ NUL :: r).drop 1 = b ++ ((p ++ rest) ++ NUL :: r) := by simp
    rw [e1, clrncpy_at hbo heo r (by omega)]
    rfl

theorem line_step (set : σ → Str → Option Str → Option (Int × σ)) (st : σ) {a b e rest : Str} (ha0 : a ≠ [])
    (ha : ∀ c ∈ a, c ≠ ':' ∧ c ≠ '\r' ∧ c ≠ '\n') (hb : ∀ c ∈ b, c ≠ '\r' ∧ c ≠ '\n') (he : EndOfLine e rest)
    (h1 : rest.head? ≠ some ' ') (h2 : rest.head? ≠ some '\t') (ho : Str.Ok (a ++ ':' :: (b ++ e))) (r : List Char) (n : Nat) :
    headersLoop set (n + 1) st (a ++ ':' :: (b ++ e) ++ NUL :: r) =
      match set st (trim a) (lineValue b) with
      | none => none
      | some (i, st) => if i ≠ 0 then some (OSIP_SYNTAXERROR, st, none) else headersLoop set n st (rest ++ NUL :: r) := by
  obtain ⟨hao, ho2⟩ := ok_append_iff.1 ho
  obtain ⟨hbo, heo⟩ := ok_append_iff.1 (ok_cons.1 ho2).2
  have hcr := crlfRun (a := a ++ ':' :: b) (r := r) (i := 0) (by
    intro c hc
    simp only [List.mem_append, List.mem_cons] at hc
    rcases hc with hc | rfl | hc
    · exact (ha c hc).2
    · decide
    · exact hb c hc) (ok_append hao (ok_cons.2 ⟨by decide, hbo⟩)) he
  rw [if_neg (by simp [h1, h2])] at hcr
  have e0 : (a ++ ':' :: b) ++ e ++ NUL :: r = a ++ ':' :: (b ++ e) ++ NUL :: r := by simp
  rw [e0] at hcr
  have hv := headerValue_run ha0 hb hbo heo he r (k := (a ++ ':' :: b).length + (e.length - rest.length)) rfl
  obtain ⟨p, rfl, _⟩ := eol_split he
  have hdrop : (a ++ ':' :: (b ++ (p ++ rest)) ++ NUL :: r).drop ((a ++ ':' :: b).length + ((p ++ rest).length - rest.length)) =
      rest ++ NUL :: r := by
    have e1 : a ++ ':' :: (b ++ (p ++ rest)) ++ NUL :: r = (a ++ ':' :: b ++ p) ++ (rest ++ NUL :: r) := by simp
    rw [e1, show (a ++ ':' :: b).length + ((p ++ rest).length - rest.length) = (a ++ ':' :: b ++ p).length by simp; omega, drop_len]
  obtain ⟨x, a', rfl⟩ := List.exists_cons_of_ne_nil ha0
  have hx := ha x (by simp)
  have hcol : cstrchr ':' ((x :: a') ++ ':' :: (b ++ (p ++ rest)) ++ NUL :: r) = some (some (':' :: (b ++ (p ++ rest)) ++ NUL :: r)) := by
    have := cstrchr_found hao (fun h => (ha _ h).1 rfl) (b ++ (p ++ rest) ++ NUL :: r) (c := ':')
    simpa using this
  have hpd : pdiff (':' :: (b ++ (p ++ rest)) ++ NUL :: r) ((x :: a') ++ ':' :: (b ++ (p ++ rest)) ++ NUL :: r) = (x :: a').length := by
    simp [pdiff]; omega
  have hn : clrncpy ((x :: a') ++ ':' :: (b ++ (p ++ rest)) ++ NUL :: r) ((x :: a').length : Int) = some (trim (x :: a')) := by
    have := clrncpy_at hao ho2 r (n := (x :: a').length) rfl
    simpa using this
  conv => lhs; unfold headersLoop
  have hd : deref ((x :: a') ++ ':' :: (b ++ (p ++ rest)) ++ NUL :: r) = some x := rfl
  rw [hd]
  simp only [Option.bind_eq_bind, Option.bind_some]
  rw [if_neg (ok_cons.1 hao).1, hcr]
  simp only [Option.bind_some, reduceCtorEq, if_false]
  rw [if_neg (fun h => h.elim hx.2.1 hx.2.2), hcol]
  simp only [Option.bind_some, hpd]
  rw [if_neg (by simp; omega), if_neg (by simp; omega), hn]
  simp only [Option.bind_some]
  simp only [Nat.zero_add]
  rw [hv, hdrop]
  simp only [Option.bind_some]
  cases set st (trim (x :: a')) (lineValue b) with
  | none => rfl
  | some q => rfl

/-! ## C75 -/

/-- **C75**, a header part is read as specified: all headers, in order, with trimmed names and values. -/
theorem c75_headers_read (set : σ → Str → Option Str → Option (Int × σ)) {s tail : Str} {calls : List (Str × Option Str)}
    (h : HeaderPart s calls tail) (hs : s.Ok) (st : σ) (r : List Char) :
    msg_headers_parse set st (s ++ NUL :: r) =
      (applyAll set st calls).map (fun (i, st) =>
        (i, st, if i ≠ 0 ∨ tail = [] then none else some (tail ++ NUL :: r))) := by
  have key : ∀ n, s.length + 1 ≤ n → headersLoop set n st (s ++ NUL :: r) =
      (applyAll set st calls).map (fun (i, st) =>
        (i, st, if i ≠ 0 ∨ tail = [] then none else some (tail ++ NUL :: r))) := by
    induction h generalizing st with
    | missing =>
      intro n hn
      obtain ⟨n, rfl⟩ : ∃ k, n = k + 1 := ⟨n - 1, by omega⟩
      simp [headersLoop, deref, applyAll]
    | blank t hc =>
      intro n hn
      rename_i c
      obtain ⟨n, rfl⟩ : ∃ k, n = k + 1 := ⟨n - 1, by omega⟩
      have hc' : c = CR ∨ c = LF := by simpa [CR, LF] using hc
      obtain ⟨rest, he⟩ := eol_of hc' t
      have k := crlfRun (a := []) (by simp) (by simp [Str.Ok]) he r 0
      rw [List.nil_append] at k
      unfold headersLoop
      have hd : deref ((c :: t) ++ NUL :: r) = some c := rfl
      rw [hd, k]
      simp only [Option.bind_eq_bind, Option.bind_some]
      rw [if_neg (ok_cons.1 hs).1, if_neg (by split <;> simp), if_pos hc']
      simp [applyAll, OSIP_SUCCESS]
    | line ha0 ha hb he h1 h2 h ih =>
      intro n hn
      rename_i a b e rest tail calls
      obtain ⟨n, rfl⟩ : ∃ k, n = k + 1 := ⟨n - 1, by omega⟩
      rw [line_step set st ha0 ha hb he h1 h2 hs, applyAll]
      obtain ⟨p, rfl, _⟩ := eol_split he
      have hro : Str.Ok rest := by
        have := ok_append_iff.1 (ok_cons.1 (ok_append_iff.1 hs).2).2
        exact (ok_append_iff.1 this.2).2
      cases set st (trim a) (lineValue b) with
      | none => rfl
      | some q =>
        obtain ⟨i, st'⟩ := q
        simp only
        split
        · simp [OSIP_SYNTAXERROR]
        · exact ih hro st' n (by simp at hn; omega)
  exact key _ (by simp)

/-- **C75**, every string: reading the headers never leaves the string (if handing over a header does not), and ends with a syntax error,
or the text is a header part all of whose headers have been accepted, in order. -/
theorem c75_headers_accepted (set : σ → Str → Option Str → Option (Int × σ))
    (hset : ∀ st a b, a.Ok → (∀ v ∈ b, v.Ok) → ∃ q, set st a b = some q) {s : Str} (hs : s.Ok) (st : σ) (r : List Char) :
    (∃ st', msg_headers_parse set st (s ++ NUL :: r) = some (OSIP_SYNTAXERROR, st', none)) ∨
      ∃ calls tail st', HeaderPart s calls tail ∧ applyAll set st calls = some (OSIP_SUCCESS, st') ∧
        msg_headers_parse set st (s ++ NUL :: r) = some (OSIP_SUCCESS, st', if tail = [] then none else some (tail ++ NUL :: r)) := by
  have key : ∀ n (s : Str), s.Ok → ∀ st, s.length + 1 ≤ n →
      (∃ st', headersLoop set n st (s ++ NUL :: r) = some (OSIP_SYNTAXERROR, st', none)) ∨
      ∃ calls tail st', HeaderPart s calls tail ∧ applyAll set st calls = some (OSIP_SUCCESS, st') := by
    intro n
    induction n with
    | zero => intro s _ st h; omega
    | succ n ih =>
      intro s hs st hn
      cases s with
      | nil => exact .inr ⟨_, _, _, .missing, rfl⟩
      | cons c t =>
        by_cases hc : c = CR ∨ c = LF
        · exact .inr ⟨_, _, _, .blank t (by simpa [CR, LF] using hc), rfl⟩
        have hd : deref ((c :: t) ++ NUL :: r) = some c := rfl
        rcases crlfStr hs r 0 with k | ⟨x, e, rest, e0, hx, he⟩
        · left
          refine ⟨st, ?_⟩
          conv => lhs; unfold headersLoop
          rw [hd, k]
          simp only [Option.bind_eq_bind, Option.bind_some]
          rw [if_neg (ok_cons.1 hs).1, if_pos trivial]
          rfl
        have hxo : Str.Ok x := (ok_append_iff.1 (e0 ▸ hs)).1
        have hcr := crlfRun hx hxo he r 0
        rw [← e0] at hcr
        rcases cstrchr_str (c := ':') hs (by decide) with ⟨_, k⟩ | ⟨a, q, e1, ha, hao, hqo, k⟩
        · left
          refine ⟨st, ?_⟩
          conv => lhs; unfold headersLoop
          rw [hd, hcr, k]
          simp only [Option.bind_eq_bind, Option.bind_some]
          rw [if_neg (ok_cons.1 hs).1, if_neg (by split <;> simp), if_neg hc]
          rfl
        have hpd : pdiff ((':' :: q) ++ NUL :: r) ((c :: t) ++ NUL :: r) = a.length := by
          rw [pdiff_nul, e1]; simp
        by_cases hgood : a ≠ [] ∧ rest.head? ≠ some ' ' ∧ rest.head? ≠ some '\t' ∧ ':' ∈ x
        · obtain ⟨ha0, h1, h2, hcx⟩ := hgood
          obtain ⟨a', b, e2, ha'⟩ := mem_first hcx
          have hb : ∀ c ∈ b, c ≠ '\r' ∧ c ≠ '\n' := fun y hy => hx y (by rw [e2]; simp [hy])
          have e3 : c :: t = a' ++ ':' :: (b ++ e) := by rw [e0, e2]; simp
          have ha0' : a' ≠ [] := by
            rintro rfl
            rw [e3] at e1
            cases a with
            | nil => exact ha0 rfl
            | cons y a =>
              simp only [List.nil_append, List.cons_append, List.cons.injEq] at e1
              exact ha (by rw [← e1.1]; simp)
          have ha2 : ∀ c ∈ a', c ≠ ':' ∧ c ≠ '\r' ∧ c ≠ '\n' :=
            fun y hy => ⟨fun h => ha' (h ▸ hy), hx y (by rw [e2]; simp [hy])⟩
          rw [e3] at hs hn ⊢
          rw [line_step set st ha0' ha2 hb he h1 h2 hs]
          have hao' := (ok_append_iff.1 hs).1
          have hbe := ok_append_iff.1 (ok_cons.1 (ok_append_iff.1 hs).2).2
          obtain ⟨⟨i, st'⟩, hq⟩ := hset st (trim a') (lineValue b) (fun h => hao' (trim_sub _ h)) (by
            unfold lineValue
            split
            · simp
            · simp only [Option.mem_some_iff]
              rintro v rfl h
              exact hbe.1 (trim_sub _ h))
          rw [hq]
          simp only
          by_cases hi : i ≠ 0
          · left; rw [if_pos hi]; exact ⟨st', rfl⟩
          · rw [if_neg hi]
            have hro : Str.Ok rest ∧ rest.length < e.length := by
              obtain ⟨p, rfl, hp⟩ := eol_split he
              refine ⟨(ok_append_iff.1 hbe.2).2, ?_⟩
              rcases hp with ⟨h, _⟩ | rfl <;> simp <;> omega
            rcases ih rest hro.1 st' (by simp at hn; omega) with k | ⟨calls, tail, st2, hh, hap⟩
            · exact .inl k
            · refine .inr ⟨_, tail, st2, .line ha0' ha2 hb he h1 h2 hh, ?_⟩
              rw [applyAll, hq]
              simp only
              rw [if_neg hi]
              exact hap
        · left
          refine ⟨st, ?_⟩
          conv => lhs; unfold headersLoop
          rw [hd, hcr, k]
          simp only [Option.bind_eq_bind, Option.bind_some]
          rw [if_neg (ok_cons.1 hs).1, if_neg (by split <;> simp), if_neg hc, hpd]
          by_cases ha0 : a = []
          · rw [if_pos (by simp [ha0])]; rfl
          have hal : 0 < a.length := List.length_pos_iff.2 ha0
          rw [if_neg (by omega)]
          by_cases hsp : rest.head? = some ' ' ∨ rest.head? = some '\t'
          · rw [if_pos hsp]; rfl
          · rw [if_neg hsp]
            simp only
            rw [if_pos]
            · rfl
            · have hcx : ':' ∉ x := fun h => hgood ⟨ha0, fun k => hsp (.inl k), fun k => hsp (.inr k), h⟩
              obtain ⟨p, rfl, hp⟩ := eol_split he
              have hcp : ':' ∉ x ++ p := by
                intro h
                rcases List.mem_append.1 h with h | h
                · exact hcx h
                · rcases hp with ⟨h1, h2⟩ | rfl
                  · obtain ⟨y, rfl⟩ := List.length_eq_one_iff.1 h1
                    simp only [List.head?_cons, Option.some.injEq] at h2
                    simp only [List.mem_singleton] at h
                    subst h
                    exact absurd h2 (by decide)
                  · exact absurd h (by decide)
              have e4 : a ++ ':' :: q = (x ++ p) ++ rest := by rw [← e1, e0]; simp
              have : (x ++ p).length ≤ a.length := by
                rcases List.append_eq_append_iff.1 e4 with ⟨w, h1, h2⟩ | ⟨w, h1, h2⟩
                · cases w with
                  | nil => rw [h1]; simp
                  | cons y w =>
                    simp only [List.cons_append, List.cons.injEq] at h2
                    exact absurd (by rw [h1, ← h2.1]; simp) hcp
                · rw [h1]; simp
              simp only [List.length_append] at this ⊢
              omega
  rcases key ((s ++ NUL :: r).length + 1) s hs st (by simp) with ⟨st', k⟩ | ⟨calls, tail, st', hh, hap⟩
  · exact .inl ⟨st', k⟩
  · right
    refine ⟨calls, tail, st', hh, hap, ?_⟩
    rw [c75_headers_read set hh hs, hap]
    simp [OSIP_SUCCESS]

/-! ## Examples -/

set_option synthInstance.maxSize 1000
set_option synthInstance.maxHeartbeats 200000

/-- A message which records the headers; names which start with `!` are refused. -/
def record (st : List (Str × Option Str)) (a : Str) (b : Option Str) : Option (Int × List (Str × Option Str)) :=
  if a.head? = some '!' then some (OSIP_SYNTAXERROR, st) else some (OSIP_SUCCESS, st ++ [(a, b)])

example : msg_headers_parse record [] (Str.buf "Via: a, b\r\nSubject:\nTo :  x:y \r\n\r\nbody".toList) =
    some (OSIP_SUCCESS, [("Via".toList, some "a, b".toList), ("Subject".toList, none), ("To".toList, some "x:y".toList)],
      some (Str.buf "\r\nbody".toList)) := by decide +kernel

example : msg_headers_parse record [] (Str.buf "A: b\r\nC: d\r\n".toList) =
    some (OSIP_SUCCESS, [("A".toList, some "b".toList), ("C".toList, some "d".toList)], none) := by decide +kernel

example : msg_headers_parse record [] (Str.buf "A: b\r\n!C: d\r\nE: f\r\n\r\n".toList) =
    some (OSIP_SYNTAXERROR, [("A".toList, some "b".toList)], none) := by decide +kernel

example : msg_headers_parse record [] (Str.buf "A: b\r\nC d\r\nE: f\r\n\r\n".toList) =
    some (OSIP_SYNTAXERROR, [("A".toList, some "b".toList)], none) := by decide +kernel

example : HeaderPart "A: b\r\nC:\n\nx".toList [("A".toList, some "b".toList), ("C".toList, none)] "\nx".toList := by
  have h2 : HeaderPart "C:\n\nx".toList [("C".toList, none)] "\nx".toList :=
    .line (a := "C".toList) (b := []) (e := "\n\nx".toList) (rest := "\nx".toList) (by decide) (by decide) (by simp) (.lf _) (by decide) (by decide)
      (.blank _ (by decide))
  exact .line (a := "A".toList) (b := " b".toList) (e := "\r\nC:\n\nx".toList) (by decide) (by decide) (by decide) (.crlf _) (by decide) (by decide) h2

end Osip
