import Verif.Parse.Body
import Verif.Parse.PropsMedia
import Verif.Parse.PropsHeaders
import Verif.Parse.PropsCase
import Verif.Parse.PropsFrom

/-!
# C54: multipart bodies are cut in bounds
-/

set_option autoImplicit false

namespace Osip

/-! ## Specification -/

/-- The text between two boundaries leaves room for a part: it has at least two characters, and the second of just two is not CR. -/
def SafeGap (mid : List Char) : Prop := 2 ≤ mid.length ∧ ∀ c, mid ≠ [c, '\r']

instance (mid : List Char) : Decidable (SafeGap mid) :=
  if h : 2 ≤ mid.length ∧ (mid.length = 2 → mid[1]? ≠ some '\r') then
    .isTrue ⟨h.1, fun c e => by subst e; exact h.2 rfl rfl⟩
  else .isFalse fun k => h ⟨k.1, fun hl hc => by
    match mid, hl, hc with
    | [c, d], _, hc => cases hc; exact k.2 c rfl⟩

/-! ## Searching -/

theorem isPrefix_iff (a b : List Char) : a.isPrefixOf b = true ↔ a <+: b := List.isPrefixOf_iff_prefix

theorem cstrstr_skip {sep : Str} {a rest : List Char} (hn : NUL ∉ a) (h : ∀ i, i < a.length → ¬ sep <+: (a ++ rest).drop i) :
    cstrstr sep (a ++ rest) = cstrstr sep rest := by
  induction a with
  | nil => rfl
  | cons c a ih =>
    have h0 := h 0 (by simp)
    simp only [List.drop_zero] at h0
    rw [List.cons_append, cstrstr, if_neg (by rw [isPrefix_iff]; exact h0), if_neg (by intro e; exact hn (by simp [e]))]
    apply ih (by intro e; exact hn (by simp [e]))
    intro i hi
    exact h (i + 1) (by simp; omega)

theorem cstrstr_here {sep : Str} (h0 : sep ≠ []) (rest : List Char) : cstrstr sep (sep ++ rest) = some (some (sep ++ rest)) := by
  cases sep with
  | nil => exact absurd rfl h0
  | cons c s =>
    rw [List.cons_append, cstrstr, if_pos]
    rw [isPrefix_iff]
    exact List.prefix_append _ _

theorem occ_found {sep : Str} (h0 : sep ≠ []) {end_ : List Char} (pre rest : List Char) (n : Nat)
    (h : ∀ i, i < pre.length → ¬ sep <+: (pre ++ (sep ++ rest)).drop i) (hc : pre.count NUL < n) (he : end_.length ≤ rest.length) :
    occurenceLoop sep end_ n (pre ++ (sep ++ rest)) = some (some (sep ++ rest)) := by
  induction n generalizing pre with
  | zero => omega
  | succ n ih =>
    rw [occurenceLoop]
    by_cases hm : NUL ∈ pre
    · obtain ⟨a, b, rfl, ha⟩ := mem_first hm
      have hs : cstrstr sep (a ++ NUL :: b ++ (sep ++ rest)) = some none := by
        rw [List.append_assoc, cstrstr_skip ha fun i hi => ?_]
        · have := h a.length (by simp)
          rw [List.append_assoc, List.drop_left] at this
          rw [List.cons_append, cstrstr, if_neg (by rw [isPrefix_iff]; exact this), if_pos rfl]
        · have := h i (by simp; omega)
          rw [List.append_assoc] at this
          exact this
      have hcs : cstr (a ++ NUL :: b ++ (sep ++ rest)) = some a := by
        rw [List.append_assoc, List.cons_append]; exact cstr_at ha _
      simp only [hs, hcs, Option.bind_eq_bind, Option.bind_some]
      have hd : (a ++ NUL :: b ++ (sep ++ rest)).drop a.length = NUL :: (b ++ (sep ++ rest)) := by
        rw [List.append_assoc, List.drop_left]; rfl
      rw [hd, if_pos (by simp [pdiff]; omega)]
      simp only [List.drop_succ_cons, List.drop_zero]
      apply ih
      · intro i hi hp
        apply h (a.length + 1 + i) (by simp; omega)
        rw [show a ++ NUL :: b ++ (sep ++ rest) = (a ++ [NUL]) ++ (b ++ (sep ++ rest)) from by simp]
        rw [show a.length + 1 + i = (a ++ [NUL]).length + i from by simp, List.drop_append, List.drop_of_length_le (by omega)]
        simpa using hp
      · simp only [List.count_append, List.count_cons, beq_self_eq_true, if_true] at hc
        omega
    · rw [cstrstr_skip hm h, cstrstr_here h0]
      rfl

theorem prefix_nul {sep : Str} (hn : sep.Ok) {s r : List Char} (h : sep <+: s ++ NUL :: r) : sep <+: s := by
  induction s generalizing sep with
  | nil =>
    cases sep with
    | nil => exact List.nil_prefix
    | cons c sep =>
      obtain ⟨t, ht⟩ := h
      cases ht
      exact absurd rfl (ok_cons.1 hn).1
  | cons c s ih =>
    cases sep with
    | nil => exact List.nil_prefix
    | cons d sep =>
      rw [List.cons_append, List.cons_prefix_cons] at h
      rw [List.cons_prefix_cons]
      exact ⟨h.1, ih (ok_cons.1 hn).2 h.2⟩

theorem cstrstr_total {sep : Str} (hn : sep.Ok) (h0 : sep ≠ []) (s : Str) (r : List Char) (hs : s.Ok) :
    cstrstr sep (s ++ NUL :: r) = some none ∨ ∃ p w : Str, s = p ++ (sep ++ w) ∧
      cstrstr sep (s ++ NUL :: r) = some (some (sep ++ (w ++ NUL :: r))) := by
  induction s with
  | nil =>
    left
    rw [List.nil_append, cstrstr, if_neg, if_pos rfl]
    rw [isPrefix_iff]
    intro h
    have := prefix_nul (s := []) hn h
    exact h0 (List.prefix_nil.1 this)
  | cons c s ih =>
    by_cases h : sep <+: c :: s
    · obtain ⟨w, hw⟩ := h
      refine .inr ⟨[], w, hw.symm, ?_⟩
      rw [← hw, List.append_assoc, cstrstr_here h0]
    · have h' : ¬ sep <+: c :: (s ++ NUL :: r) := fun hp => h (prefix_nul (s := c :: s) hn hp)
      rw [List.cons_append, cstrstr, if_neg (by rw [isPrefix_iff]; exact h'), if_neg (ok_cons.1 hs).1]
      rcases ih (ok_cons.1 hs).2 with k | ⟨p, w, e, k2⟩
      · left; exact k
      · exact .inr ⟨c :: p, w, by rw [e]; rfl, k2⟩

theorem occ_total {sep : Str} (hn : sep.Ok) (h0 : sep ≠ []) (z : List Char) (n : Nat) (d : List Char) :
    ∃ res, occurenceLoop sep (NUL :: z) n (d ++ NUL :: z) = some res ∧
      ∀ q ∈ res, ∃ p w, d = p ++ (sep ++ w) ∧ q = sep ++ (w ++ NUL :: z) := by
  induction n generalizing d with
  | zero => exact ⟨none, rfl, by simp⟩
  | succ n ih =>
    rw [occurenceLoop]
    by_cases hm : NUL ∈ d
    · obtain ⟨a, b, rfl, ha⟩ := mem_first hm
      rw [show a ++ NUL :: b ++ NUL :: z = a ++ NUL :: (b ++ NUL :: z) from by simp]
      rcases cstrstr_total hn h0 a (b ++ NUL :: z) ha with h | ⟨p, w, rfl, h⟩
      · simp only [h, cstr_at ha, Option.bind_eq_bind, Option.bind_some, drop_len]
        rw [if_pos (by simp [pdiff]; omega)]
        obtain ⟨res, h1, h2⟩ := ih b
        refine ⟨res, h1, fun q hq => ?_⟩
        obtain ⟨p, w, rfl, hw⟩ := h2 q hq
        exact ⟨a ++ NUL :: p, w, by simp, hw⟩
      · simp only [h, Option.bind_eq_bind, Option.bind_some]
        refine ⟨_, rfl, fun q hq => ?_⟩
        cases hq
        exact ⟨p, w ++ NUL :: b, by simp, by simp⟩
    · rcases cstrstr_total hn h0 d z hm with h | ⟨p, w, rfl, h⟩
      · simp only [h, cstr_at hm, Option.bind_eq_bind, Option.bind_some, drop_len]
        rw [if_neg (by simp [pdiff])]
        exact ⟨_, rfl, by simp⟩
      · simp only [h, Option.bind_eq_bind, Option.bind_some]
        refine ⟨_, rfl, fun q hq => ?_⟩
        cases hq
        exact ⟨p, w, rfl, rfl⟩

/-! ## The parts -/

theorem last_of {a : List Char} (h : a ≠ []) (t : List Char) : ∃ l c, a = l ++ [c] ∧ deref ((a ++ t).drop (a.length - 1)) = some c := by
  obtain ⟨l, c, rfl⟩ : ∃ l c, a = l ++ [c] := ⟨a.dropLast, a.getLast h, (List.dropLast_concat_getLast h).symm⟩
  refine ⟨l, c, rfl, ?_⟩
  simp [deref]

theorem mimePart_at {sep : Str} (hs : ∃ x, sep = '\n' :: '-' :: '-' :: x) (mid rest : List Char) :
    ∃ p n, mimePart sep (sep ++ (mid ++ (sep ++ rest))) (sep ++ rest) = some (p, n) ∧ (0 ≤ n ↔ SafeGap mid) ∧
      (0 ≤ n → n ≤ p.length ∧ p.length ≤ (mid ++ (sep ++ rest)).length) ∧
      (∀ x, mid = '\r' :: '\n' :: (x ++ ['\r']) → p = x ++ ('\r' :: (sep ++ rest)) ∧ n = x.length) := by
  obtain ⟨y, hy⟩ := hs
  have hd : (sep ++ (mid ++ (sep ++ rest))).drop (sep.length + 1) = (mid ++ (sep ++ rest)).drop 1 := by
    rw [List.drop_append, List.drop_of_length_le (by omega)]; simp
  have hE : sep ++ rest = '\n' :: '-' :: '-' :: (y ++ rest) := by rw [hy]; rfl
  have hp : (pdiff (sep ++ rest) (sep ++ (mid ++ (sep ++ rest)))).toNat = (sep ++ mid).length := by simp [pdiff]; omega
  obtain ⟨l, b, e1, e2⟩ := last_of (a := sep ++ mid) (by simp [hy]) (sep ++ rest)
  rw [List.append_assoc sep mid] at e2
  simp only [mimePart, hd, hp, e2, Option.bind_eq_bind, Option.bind_some]
  have hpd : ∀ q : List Char, pdiff (sep ++ rest) q = (q.length : Int) - (sep ++ rest).length := fun q => rfl
  simp only [hpd]
  match mid, e1 with
  | [], e1 =>
    rw [List.nil_append, hE]
    simp only [List.drop_succ_cons, List.drop_zero, deref, List.head?_cons, Option.bind_some]
    rw [if_neg (by decide)]
    refine ⟨_, _, rfl, ⟨fun h => ?_, fun h => absurd h.1 (by simp)⟩, fun h => ?_, by simp⟩
    all_goals
      simp only [List.length_cons, List.length_append] at h
      split at h <;> omega
  | [m], e1 =>
    rw [List.singleton_append, List.drop_succ_cons, List.drop_zero, hE]
    simp only [List.drop_succ_cons, List.drop_zero, deref, List.head?_cons, Option.bind_some]
    rw [if_pos (by decide)]
    refine ⟨_, _, rfl, ⟨fun h => ?_, fun h => absurd h.1 (by simp)⟩, fun h => ?_, by simp⟩
    all_goals
      simp only [List.length_cons, List.length_append] at h
      split at h <;> omega
  | m0 :: m1 :: m', e1 =>
    simp only [List.cons_append, List.drop_succ_cons, List.drop_zero, deref, List.head?_cons, Option.bind_some]
    refine ⟨_, _, rfl, ?_, ?_, ?_⟩
    · have key : m' = [] → b = m1 := by
        intro h
        subst h
        have := congrArg List.getLast? e1
        simp at this
        exact this.symm
      constructor
      · intro h
        refine ⟨by simp, fun c hc => ?_⟩
        cases hc
        have hb := key rfl
        subst hb
        simp at h
      · intro ⟨_, h⟩
        by_cases hm : m' = []
        · have hb := key hm
          subst hm hb
          have hb : b ≠ '\r' := fun hb => h m0 (by rw [hb])
          simp only [hb, if_false, or_false]
          split <;> simp <;> omega
        · have := List.length_pos_iff.2 hm
          split <;> split <;> simp <;> omega
    · intro h
      split <;> split <;> simp <;> omega
    · intro x hx
      simp only [List.cons.injEq] at hx
      obtain ⟨rfl, rfl, rfl⟩ := hx
      have hb : b = '\r' := by
        have := congrArg List.getLast? e1
        simp [List.getLast?_append, List.getLast?_cons] at this
        exact this.symm
      subst hb
      simp
      omega

theorem trim_ok {s : Str} (hs : s.Ok) : Str.Ok (trim s) := fun h => hs (trim_sub s h)

theorem Str.take_ok {s : Str} (hs : s.Ok) (n : Nat) : Str.Ok (s.take n) := fun h => hs (List.mem_of_mem_take h)

theorem bodyLine_total (b : Body) {n v : Str} (hn : n.Ok) (hv : v.Ok) : ∃ res, bodyLine b n v = some res := by
  obtain ⟨k, k1, -⟩ := c57_strncasecmp hn (t := "content-type".toList) (by decide) [] [] 12
  unfold bodyLine
  rw [Str.buf, k1]
  simp only [Option.bind_eq_bind, Option.bind_some]
  split
  · obtain ⟨⟨i, ct⟩, h⟩ := c77_in_bounds hv []
    unfold osip_body_set_contenttype
    rw [h]
    simp only [Option.bind_eq_bind, Option.bind_some]
    split
    · exact ⟨_, rfl⟩
    · exact ⟨_, rfl⟩
  · exact ⟨_, rfl⟩

theorem bodyHeaders_str (n : Nat) (b : Body) {s : Str} (hs : s.Ok) (r : List Char) (hn : s.length < n) :
    ∃ i b' next, bodyHeaders n b (s ++ NUL :: r) = some (i, b', next) ∧ (i = 0 → ∃ c t, next = some (c :: (t ++ NUL :: r)) ∧
      (c = CR ∨ c = LF) ∧ ∃ a, s = a ++ c :: t) := by
  induction n generalizing b s with
  | zero => omega
  | succ n ih =>
    unfold bodyHeaders
    rcases crlfStr hs r 0 with hf | ⟨a, e, rest, rfl, ha, he⟩
    · rw [hf]
      exact ⟨_, _, _, rfl, by simp [OSIP_SYNTAXERROR]⟩
    · obtain ⟨hao, heo⟩ := ok_append_iff.1 hs
      have hf := crlfRun ha hao he r 0
      obtain ⟨p, rfl, hp⟩ := eol_split he
      have hpo := ok_append_iff.1 heo
      by_cases hcont : rest.head? = some ' ' ∨ rest.head? = some '\t'
      · rw [if_pos hcont] at hf
        rw [hf]
        simp only [Option.bind_eq_bind, Option.bind_some]
        rw [if_neg (by simp)]
        rcases cstrchr_cases (c := ':') hs (by decide) r with ⟨-, h⟩ | ⟨x, y, e', hx, h⟩
        · rw [h]
          exact ⟨_, _, _, rfl, by simp [OSIP_SYNTAXERROR]⟩
        · rw [h]
          simp only [Option.bind_some]
          have hxl := congrArg List.length e'
          simp only [List.length_append, List.length_cons] at hxl
          rw [pdiff_nul, clrncpy_total hs _ (by simp; omega) (by simp; omega)]
          split
          · exact ⟨_, _, _, rfl, by simp [OSIP_SYNTAXERROR]⟩
          · exact ⟨_, _, _, rfl, by simp [OSIP_SYNTAXERROR]⟩
      rw [if_neg hcont] at hf
      rw [hf]
      simp only [Option.bind_eq_bind, Option.bind_some]
      rw [if_neg (by simp)]
      rcases cstrchr_cases (c := ':') hs (by decide) r with ⟨-, h⟩ | ⟨x, y, e', hx, h⟩
      · rw [h]
        exact ⟨_, _, _, rfl, by simp [OSIP_SYNTAXERROR]⟩
      · rw [h]
        simp only [Option.bind_some]
        have hxl := congrArg List.length e'
        simp only [List.length_append, List.length_cons] at hxl
        rw [pdiff_nul, clrncpy_total hs _ (by simp; omega) (by simp; omega)]
        simp only [Option.bind_some]
        split
        · exact ⟨_, _, _, rfl, by simp [OSIP_SYNTAXERROR]⟩
        split
        · exact ⟨_, _, _, rfl, by simp [OSIP_SYNTAXERROR]⟩
        rename_i hlt
        have hyo : Str.Ok y := by rw [e'] at hs; exact (ok_cons.1 (ok_append_iff.1 hs).2).2
        have hp12 : p.length = 1 ∨ p.length = 2 := by
          rcases hp with ⟨h, -⟩ | rfl
          · exact .inl h
          · exact .inr rfl
        simp only [List.length_append, List.length_cons] at hlt
        rw [drop_nul, clrncpy_total hyo _ (by simp; omega) (by simp; omega)]
        simp only [Option.bind_some]
        obtain ⟨⟨i, b'⟩, hb⟩ := bodyLine_total b
          (trim_ok (Str.take_ok hs (((a ++ (p ++ rest)).length : Int) - ((':' :: y).length : Int)).toNat))
          (trim_ok (Str.take_ok hyo (((0 + a.length + ((p ++ rest).length - rest.length) : Nat) : Int) - 2 -
            (((a ++ (p ++ rest)).length : Int) - ((':' :: y).length : Int)) - 1).toNat))
        rw [hb]
        simp only [Option.bind_some]
        split
        · rename_i hi
          exact ⟨_, _, _, rfl, fun h => absurd h hi⟩
        have hd : (a ++ (p ++ rest) ++ NUL :: r).drop (0 + a.length + ((p ++ rest).length - rest.length)) = rest ++ NUL :: r := by
          rw [show a ++ (p ++ rest) ++ NUL :: r = (a ++ p) ++ (rest ++ NUL :: r) from by simp]
          exact drop_app _ _ (by simp)
        rw [hd]
        obtain ⟨c, hc, c1, c2⟩ := deref_str rest r
        rw [hc]
        simp only [Option.bind_some]
        split
        · rename_i hcr
          have hcn : c ≠ NUL := by
            intro e
            subst e
            exact absurd hcr (by decide)
          obtain ⟨t, rfl⟩ := c2 hcn
          exact ⟨_, _, _, rfl, fun _ => ⟨c, t, rfl, hcr, a ++ p, by simp⟩⟩
        · obtain ⟨i, b', next, k1, k2⟩ := ih b' hpo.2 (by simp at hn; omega)
          refine ⟨i, b', next, k1, fun hi => ?_⟩
          obtain ⟨c, t, e1, e2, a', rfl⟩ := k2 hi
          exact ⟨c, t, e1, e2, a ++ (p ++ a'), by simp⟩

theorem nul_split (d z : List Char) : ∃ (s : Str) (r : List Char), s.Ok ∧ d ++ NUL :: z = s ++ NUL :: r ∧ s.length ≤ d.length ∧ z.length ≤ r.length := by
  by_cases h : NUL ∈ d
  · obtain ⟨a, b, rfl, ha⟩ := mem_first h
    exact ⟨a, b ++ NUL :: z, ha, by simp, by simp, by simp; omega⟩
  · exact ⟨d, z, h, rfl, by omega, by omega⟩

theorem startsWith_crlf (c : Char) (hc : c ≠ NUL) (t : Str) (r : List Char) : ∃ b, startsWith "\r\n".toList (c :: (t ++ NUL :: r)) = some b ∧ (b = true → t ≠ []) := by
  show ∃ b, startsWith ['\r', '\n'] _ = some b ∧ _
  unfold startsWith
  split
  · unfold startsWith
    cases t with
    | nil =>
      simp only [List.nil_append]
      rw [if_neg (by decide)]
      exact ⟨_, rfl, by simp⟩
    | cons d t =>
      simp only [List.cons_append]
      split
      · exact ⟨_, rfl, by simp⟩
      · exact ⟨_, rfl, by simp⟩
  · exact ⟨_, rfl, by simp⟩

theorem parse_mime_total (d : List Char) : ∃ i b, osip_body_parse_mime (d ++ [NUL]) d.length = some (i, b) := by
  obtain ⟨s, r, hs, e, hl, -⟩ := nul_split d []
  have hlen := congrArg List.length e
  simp only [List.length_append, List.length_cons, List.length_nil] at hlen
  obtain ⟨i, b, next, h1, h2⟩ := bodyHeaders_str (n := (d ++ [NUL]).length + 1) {} hs r (by simp; omega)
  rw [← e] at h1
  unfold osip_body_parse_mime
  rw [h1]
  simp only [Option.bind_eq_bind, Option.bind_some]
  split
  · exact ⟨_, _, rfl⟩
  · rename_i hi
    obtain ⟨c, t, rfl, hc, a, rfl⟩ := h2 (Classical.not_not.1 hi)
    have hcn : c ≠ NUL := by rintro rfl; exact absurd hc (by decide)
    obtain ⟨b', g1, g2⟩ := startsWith_crlf c hcn t r
    simp only [Option.bind_some, g1]
    have fin : ∀ k, k ≤ (c :: t).length → ∃ i b'', (if (d.length : Int) - pdiff ((c :: (t ++ NUL :: r)).drop k) (d ++ [NUL]) ≤ 0 then pure (OSIP_SYNTAXERROR, b) else
        (memcpy ((c :: (t ++ NUL :: r)).drop k) (d.length - pdiff ((c :: (t ++ NUL :: r)).drop k) (d ++ [NUL]))).bind fun data =>
          pure (OSIP_SUCCESS, { b with body := data }) : Option (Int × Body)) = some (i, b'') := by
      intro k hk
      split
      · exact ⟨_, _, rfl⟩
      · rename_i hn
        rw [memcpy, if_pos]
        · exact ⟨_, _, rfl⟩
        · simp only [pdiff, List.length_append, List.length_cons, List.length_nil, List.length_drop] at hn hk hlen ⊢
          omega
    cases b' with
    | true =>
      have := List.length_pos_iff.2 (g2 rfl)
      exact fin 2 (by simp; omega)
    | false => exact fin 1 (by simp)

theorem startsWith_dashes (d z : List Char) : ∃ b, startsWith "--".toList (d ++ NUL :: z) = some b := by
  show ∃ b, startsWith ['-', '-'] _ = some b
  cases d with
  | nil => exact ⟨false, by simp [startsWith, show '-' ≠ NUL by decide]⟩
  | cons c d =>
    simp only [List.cons_append, startsWith]
    split
    · cases d with
      | nil => exact ⟨false, by simp [startsWith, show '-' ≠ NUL by decide]⟩
      | cons c d =>
        simp only [List.cons_append, startsWith]
        split <;> exact ⟨_, rfl⟩
    · exact ⟨_, rfl⟩

/-! ## C54 -/

theorem mimeLoop_total {sep : Str} (hs : ∃ x, sep = '\n' :: '-' :: '-' :: x) (ho : sep.Ok) (z : List Char) (n : Nat) (bodies : List Body)
    (d : List Char) (hn : d.length < n) (hsafe : ∀ pre mid post, d = pre ++ (sep ++ (mid ++ (sep ++ post))) → SafeGap mid) :
    ∃ res, mimeLoop sep (NUL :: z) n bodies (d ++ NUL :: z) = some res := by
  have h0 : sep ≠ [] := by obtain ⟨x, rfl⟩ := hs; simp
  have hlp := List.length_pos_iff.2 h0
  induction n generalizing bodies d with
  | zero => omega
  | succ n ih =>
    unfold mimeLoop find_next_occurence
    obtain ⟨q, h1, h2⟩ := occ_total ho h0 z 1000 d
    rw [h1]
    cases q with
    | none => exact ⟨_, rfl⟩
    | some q =>
      obtain ⟨p, w, rfl, rfl⟩ := h2 q rfl
      simp only [Option.bind_eq_bind, Option.bind_some]
      rw [List.drop_left]
      obtain ⟨q', h1', h2'⟩ := occ_total ho h0 z 1000 w
      rw [h1']
      cases q' with
      | none => exact ⟨_, rfl⟩
      | some q' =>
        obtain ⟨mid, post, rfl, rfl⟩ := h2' q' rfl
        simp only [Option.bind_some]
        obtain ⟨b, len, k1, k2, k3, -⟩ := mimePart_at hs mid (post ++ NUL :: z)
        rw [show sep ++ (mid ++ (sep ++ post) ++ NUL :: z) = sep ++ (mid ++ (sep ++ (post ++ NUL :: z))) from by simp, k1]
        simp only [Option.bind_some]
        have hlen := k2.2 (hsafe p mid post rfl)
        rw [memcpy, if_pos ⟨hlen, (k3 hlen).1⟩]
        simp only [Option.bind_some]
        obtain ⟨i, b', m1⟩ := parse_mime_total (b.take len.toNat)
        rw [m1]
        simp only [Option.bind_some]
        split
        · exact ⟨_, rfl⟩
        · rw [List.drop_left]
          obtain ⟨x, hx⟩ := startsWith_dashes post z
          rw [hx]
          simp only [Option.bind_some]
          split
          · exact ⟨_, rfl⟩
          · have := ih (bodies ++ [b']) (sep ++ post) (by simp at hn ⊢; omega) (by
              intro pre' mid' post' e
              apply hsafe (p ++ (sep ++ (mid ++ pre'))) mid' post'
              rw [e]
              simp)
            rw [← List.append_assoc]
            exact this

theorem sepBoundary_ok {g : Str} (hg : g.Ok) : Str.Ok (sepBoundary g) ∧ ∃ x, sepBoundary g = '\n' :: '-' :: '-' :: x := by
  refine ⟨?_, _, rfl⟩
  unfold sepBoundary
  refine ok_append (by decide) ?_
  split
  · exact Str.take_ok (fun h => hg (List.mem_of_mem_drop h)) _
  · exact hg

/-- **C54** does not hold: if the text between the first two boundaries has no character, one character, or two characters with CR as
second, then the length of the part is negative and `memcpy` is called with it. The text before and between the boundaries has less than
1000 zero bytes and the boundary does not occur in it. -/
theorem c54_violated {sep : Str} (hs : ∃ x, sep = '\n' :: '-' :: '-' :: x) {pre mid post z : List Char}
    (h1 : ∀ i, i < pre.length → ¬ sep <+: (pre ++ (sep ++ (mid ++ (sep ++ post ++ NUL :: z)))).drop i)
    (h2 : ∀ i, i < mid.length → ¬ sep <+: (mid ++ (sep ++ post ++ NUL :: z)).drop i) (c1 : pre.count NUL < 1000) (hm : ¬ SafeGap mid)
    (n : Nat) (bodies : List Body) :
    mimeLoop sep (NUL :: z) n bodies (pre ++ (sep ++ (mid ++ (sep ++ post ++ NUL :: z)))) = none := by
  have h0 : sep ≠ [] := by obtain ⟨x, rfl⟩ := hs; simp
  cases n with
  | zero => rfl
  | succ n =>
    unfold mimeLoop find_next_occurence
    have c2 : mid.count NUL < 1000 := by
      have := List.count_le_length (a := NUL) (l := mid)
      have : mid.length < 3 := by
        apply Classical.byContradiction
        intro h
        refine hm ⟨by omega, fun c e => ?_⟩
        rw [e] at h
        simp at h
      omega
    rw [occ_found h0 pre _ 1000 h1 c1 (by simp; omega)]
    simp only [Option.bind_eq_bind, Option.bind_some]
    rw [List.drop_left, List.append_assoc sep post, occ_found h0 mid _ 1000 (by rw [← List.append_assoc sep post]; exact h2) c2 (by simp)]
    simp only [Option.bind_some]
    obtain ⟨p, len, k1, k2, -, -⟩ := mimePart_at hs mid (post ++ NUL :: z)
    rw [k1]
    simp only [Option.bind_some]
    rw [memcpy, if_neg]
    · rfl
    · intro h
      exact hm (k2.1 h.1)

theorem plainBody_total (cl : Option Str) (d z : List Char) : ∃ res, plainBody cl (d ++ NUL :: z) d.length = some res := by
  unfold plainBody
  cases d with
  | nil => exact ⟨_, rfl⟩
  | cons c d =>
    simp only [List.cons_append, deref, List.head?_cons, Option.bind_eq_bind, Option.bind_some]
    split
    · exact ⟨_, rfl⟩
    split
    · exact ⟨_, rfl⟩
    have fin : ∀ k : Nat, 1 ≤ k → k ≤ d.length + 1 → ∃ res, (if (((c :: d).length : Int) - k) % 2 ^ 64 = 0 then pure (OSIP_SYNTAXERROR, [], cl)
        else if (((c :: d).length : Int) - k) % 2 ^ 64 <
              (match cl with | some v => osip_atoi (some v) % 2 ^ 64 | none => (((c :: d).length : Int) - k) % 2 ^ 64) then
          pure (OSIP_SYNTAXERROR, [], some (match cl with | some v => v | none => intText (toInt32 ((((c :: d).length : Int) - k) % 2 ^ 64))))
        else (memcpy ((c :: (d ++ NUL :: z)).drop k)
              (match cl with | some v => osip_atoi (some v) % 2 ^ 64 | none => (((c :: d).length : Int) - k) % 2 ^ 64)).bind fun tmp =>
          (osip_body_parse (tmp ++ [NUL]) tmp.length).bind fun x =>
            if x.1 ≠ 0 then pure (x.1, [], some (match cl with | some v => v | none => intText (toInt32 ((((c :: d).length : Int) - k) % 2 ^ 64))))
            else pure (OSIP_SUCCESS, [x.2], some (match cl with | some v => v | none => intText (toInt32 ((((c :: d).length : Int) - k) % 2 ^ 64)))) :
        Option (Int × List Body × Option Str)) = some res := by
      intro k h1 hk
      generalize hL : (((c :: d).length : Int) - k) % 2 ^ 64 = L
      have hL' : 0 ≤ L ∧ L ≤ ((c :: (d ++ NUL :: z)).drop k).length := by
        have := Int.emod_nonneg (((c :: d).length : Int) - k) (b := 2 ^ 64) (by decide)
        have h3 : (((c :: d).length : Int) - k) % 2 ^ 64 ≤ ((c :: d).length : Int) - k := by
          rw [Int.emod_def]
          have : 0 ≤ (((c :: d).length : Int) - k) / 2 ^ 64 := Int.ediv_nonneg (by simp; omega) (by decide)
          omega
        simp only [List.length_cons, List.length_drop, List.length_append] at *
        omega
      split
      · exact ⟨_, rfl⟩
      generalize hn : (match cl with | some v => osip_atoi (some v) % 2 ^ 64 | none => L) = n
      have hn0 : 0 ≤ n := by
        subst hn
        cases cl with
        | none => exact hL'.1
        | some v => exact Int.emod_nonneg _ (by decide)
      split
      · exact ⟨_, rfl⟩
      · rename_i hle
        rw [memcpy, if_pos ⟨hn0, by omega⟩]
        simp only [Option.bind_some, osip_body_parse, memcpy]
        rw [if_pos (by simp; omega)]
        simp only [Option.bind_eq_bind, Option.bind_some]
        split <;> exact ⟨_, rfl⟩
    by_cases hc : c = '\r'
    · rw [if_pos hc]
      cases d with
      | nil =>
        simp only [List.nil_append, List.drop_succ_cons, List.drop_zero, List.head?_cons, Option.bind_some]
        rw [if_neg (by decide)]
        exact fin 1 (by omega) (by omega)
      | cons e d =>
        simp only [List.cons_append, List.drop_succ_cons, List.drop_zero, List.head?_cons, Option.bind_some]
        by_cases he : e = '\n'
        · rw [if_pos he]
          exact fin 2 (by omega) (by simp)
        · rw [if_neg he]
          exact fin 1 (by omega) (by omega)
    · rw [if_neg hc]
      exact fin 1 (by omega) (by omega)

/-- **C54** if every two occurrences of the boundary leave room for a part. No access of `msg_osip_body_parse` leaves the message `d`
with its terminator, whatever the content type, Content-Length and the bytes are. Missing: boundaries which follow each other too
closely, see `c54_violated`. -/
theorem c54_in_bounds_partial (ct : Option MediaType) (cl : Option Str) (d z : List Char)
    (hok : ∀ t g, ct = some t → ∀ p ∈ t.gen_params, p.gvalue = some g → Str.Ok g)
    (hsafe : ∀ t g, ct = some t → (∃ p ∈ t.gen_params, p.gvalue = some g) →
      ∀ pre mid post, d = pre ++ (sepBoundary g ++ (mid ++ (sepBoundary g ++ post))) → SafeGap mid) :
    ∃ res, msg_osip_body_parse ct cl (d ++ NUL :: z) d.length = some res := by
  unfold msg_osip_body_parse
  split
  · rename_i type _ ps
    split
    · split
      · exact ⟨_, rfl⟩
      · rename_i p hp
        split
        · exact ⟨_, rfl⟩
        · rename_i g hg
          have hm : p ∈ ps := by
            unfold paramByName at hp
            exact List.mem_of_find?_eq_some hp
          obtain ⟨h1, h2⟩ := sepBoundary_ok (hok _ g rfl p hm hg)
          obtain ⟨res, hr⟩ := mimeLoop_total h2 h1 z ((d ++ NUL :: z).length + 1) [] d (by simp; omega) (hsafe _ g rfl ⟨p, hm, hg⟩)
          rw [List.drop_left, hr]
          exact ⟨_, rfl⟩
    · exact plainBody_total cl d z
  · exact ⟨_, rfl⟩

/-! ## Examples -/

/-- A multipart content type with the boundary `b`. -/
def multiB : MediaType := ⟨some "multipart".toList, some "mixed".toList, [⟨"boundary".toList, some "b".toList⟩]⟩

example : msg_osip_body_parse (some multiB) none ("\r\n--b\r\nA: 1\r\n\r\nhello\r\n--b--\r\n".toList ++ [NUL]) 35 =
    some (OSIP_SUCCESS, [⟨"hello".toList, [⟨some "A".toList, some "1".toList⟩], none⟩], none) := by decide +kernel

example : ¬ SafeGap [] ∧ ¬ SafeGap "\n".toList ∧ ¬ SafeGap "\r\r".toList ∧ SafeGap "\r\n".toList ∧ SafeGap "xx".toList := by decide

example : msg_osip_body_parse (some multiB) none ("\r\n--b\n--b--\r\n".toList ++ [NUL]) 14 = none ∧
    msg_osip_body_parse (some multiB) none ("\r\n--b--b--\r\n".toList ++ [NUL]) 12 = some (OSIP_SYNTAXERROR, [], none) := by decide +kernel

example : msg_osip_body_parse (some ⟨some "text".toList, some "plain".toList, []⟩) (some "3".toList) ("\r\nabcd".toList ++ [NUL]) 6 =
    some (OSIP_SUCCESS, [⟨"abc".toList, [], none⟩], some "3".toList) := by decide +kernel

end Osip
