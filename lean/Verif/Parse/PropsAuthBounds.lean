import Verif.Parse.PropsAuthStr
import Verif.Parse.PropsFrom

/-!
# C82: the parsers of the credentials stay inside every string
-/

set_option autoImplicit false

namespace Osip

/-- A pointer into the string before `NUL :: r`, at most `n` characters before its end. -/
def Within (r : List Char) (n : Nat) (p : List Char) : Prop := ∃ s : Str, s.Ok ∧ p = s ++ NUL :: r ∧ s.length ≤ n

theorem skip_str {cs : List Char} (hn : NUL ∉ cs) {s : Str} (hs : s.Ok) (r : List Char) :
    ∃ u : Str, u.Ok ∧ u.length ≤ s.length ∧ (∀ c v, u = c :: v → c ∉ cs) ∧ skipChars cs (s ++ NUL :: r) = some (u ++ NUL :: r) := by
  induction s with
  | nil => exact ⟨[], hs, by simp, (by intro c v h; cases h), by simp [skipChars, hn]⟩
  | cons c s ih =>
    by_cases h : c ∈ cs
    · obtain ⟨u, h1, h2, h3, h4⟩ := ih (ok_cons.1 hs).2
      exact ⟨u, h1, by simp; omega, h3, by simp [skipChars, h, h4]⟩
    · exact ⟨c :: s, hs, by simp, (by intro d v e; cases e; exact h), by simp [skipChars, h]⟩

theorem nextElement_str {s : Str} (hs : s.Ok) (r : List Char) :
    ∃ next, nextElement (s ++ NUL :: r) = some next ∧ ∀ q ∈ next, Within r s.length q := by
  obtain ⟨u, u1, u2, -, u4⟩ := skip_str (cs := [' ', '\t']) (by decide) hs r
  obtain ⟨v, v1, v2, -, v4⟩ := skip_str (cs := ['\n', '\r']) (by decide) u1 r
  obtain ⟨w, w1, w2, -, w4⟩ := skip_str (cs := [' ', '\t']) (by decide) v1 r
  obtain ⟨c, hc, -, -⟩ := deref_str v r
  obtain ⟨d, hd, -, -⟩ := deref_str w r
  simp only [nextElement, u4, v4, w4, hc, hd, Option.bind_eq_bind, Option.bind_some]
  split
  · exact ⟨_, rfl, by simp⟩
  · split
    · exact ⟨_, rfl, by simp; exact ⟨v, v1, rfl, by omega⟩⟩
    · split
      · exact ⟨_, rfl, by simp⟩
      · exact ⟨_, rfl, by simp; exact ⟨w, w1, rfl, by omega⟩⟩

theorem backSpaces_str {c : Char} (hc : c ≠ ' ') (t : List Char) {h : Nat} (h0 : 0 < h) (hl : h ≤ t.length + 1) :
    ∃ k, backSpaces (c :: t) h = some k := by
  induction h with
  | zero => omega
  | succ h ih =>
    simp only [backSpaces]
    cases h with
    | zero => simp [hc]
    | succ h =>
      have : h + 1 < (c :: t).length := by simp; omega
      rw [List.getElem?_eq_getElem this]
      simp only
      split
      · exact ih (by omega) (by omega)
      · exact ⟨_, rfl⟩

theorem quotedValue_str {s : Str} (hs : s.Ok) (r : List Char) :
    ∃ i v next, quotedValue (s ++ NUL :: r) = some (i, v, next) ∧ ∀ q ∈ next, Within r s.length q := by
  simp only [quotedValue]
  rcases cquote_find_into hs r with h | ⟨a, u, rfl, h⟩
  · rw [h]; exact ⟨_, _, _, rfl, by simp⟩
  · rw [h]
    simp only [Option.bind_eq_bind, Option.bind_some]
    obtain ⟨ha, hu⟩ := ok_append_iff.1 hs
    have hu' := (ok_cons.1 hu).2
    rw [drop_nul]
    rcases cquote_find_into hu' r with h | ⟨b, w, rfl, h⟩
    · rw [h]; exact ⟨_, _, _, rfl, by simp⟩
    · rw [h]
      simp only [Option.bind_eq_bind, Option.bind_some]
      rw [drop_nul]
      obtain ⟨hb, hw⟩ := ok_append_iff.1 hu'
      obtain ⟨next, n1, n2⟩ := nextElement_str (ok_cons.1 hw).2 r
      have n3 : ∀ q ∈ next, Within r (a ++ '"' :: (b ++ '"' :: w)).length q := by
        intro q hq
        obtain ⟨s, s1, s2, s3⟩ := n2 q hq
        exact ⟨s, s1, s2, by simp; omega⟩
      have hp : 0 ≤ pdiff ('"' :: w ++ NUL :: r) ('"' :: (b ++ '"' :: w) ++ NUL :: r) + 1 := by
        rw [pdiff_nul]; simp; omega
      rw [strncpy_total hu _ hp, n1]
      split
      · exact ⟨_, _, _, rfl, n3⟩
      · exact ⟨_, _, _, rfl, n3⟩

/-- The first letter of a name the tables know. -/
def GoodName (n : Str) : Prop := n.Ok ∧ ∃ c t, n = c :: t ∧ ctolower c ≠ ctolower '='

theorem quoted_str {n : Str} (hn : GoodName n) {s : Str} (hs : s.Ok) (r : List Char) (v : Option Str) :
    ∃ i v' next, quoted_string_set n (s ++ NUL :: r) v = some (i, v', next) ∧ ∀ q ∈ next, Within r s.length q := by
  cases v with
  | some v => exact ⟨_, _, _, rfl, by simp; exact ⟨s, hs, rfl, by omega⟩⟩
  | none =>
    obtain ⟨u, u1, u2, u3, u4⟩ := skip_str (cs := [' ', '\t', ',']) (by decide) hs r
    obtain ⟨hno, c, t, rfl, hne⟩ := hn
    have hself : Within r s.length (u ++ NUL :: r) := ⟨u, u1, rfl, u2⟩
    simp only [quoted_string_set, u4, Option.bind_eq_bind, Option.bind_some]
    obtain ⟨k, k1, k2⟩ := c57_strncasecmp hno u1 [] r (c :: t).length
    rw [cbuf, k1]
    simp only [Option.bind_some]
    split
    · rename_i hk
      have hk' := k2.1 hk
      rcases cstrchr_cases (c := '=') u1 (by decide) r with ⟨-, h⟩ | ⟨a, b, rfl, ha, h⟩
      · rw [h]; exact ⟨_, _, _, rfl, by simp⟩
      · rw [h]
        simp only [Option.bind_some]
        cases a with
        | nil =>
          exfalso
          simp only [lower, List.length_cons, List.take_succ_cons, List.nil_append, List.map_cons, List.cons.injEq] at hk'
          exact hne ((ctolower_inj _ _).2 hk'.1)
        | cons d a =>
          have hd : d ≠ ' ' := by
            intro e
            exact u3 d _ rfl (by simp [e])
          have hpd : (pdiff ('=' :: b ++ NUL :: r) (d :: a ++ '=' :: b ++ NUL :: r)).toNat = a.length + 1 := by
            rw [pdiff_nul]; simp; omega
          rw [hpd]
          obtain ⟨m, hm⟩ := backSpaces_str hd (a ++ '=' :: b ++ NUL :: r) (h := a.length + 1) (by omega) (by simp)
          rw [show d :: a ++ '=' :: b ++ NUL :: r = d :: (a ++ '=' :: b ++ NUL :: r) from by simp, hm]
          simp only [Option.bind_some]
          split
          · refine ⟨_, _, _, rfl, fun q hq => ?_⟩
            cases hq
            exact hself
          · obtain ⟨i, v, next, q1, q2⟩ := quotedValue_str u1 r
            refine ⟨i, v, next, ?_, fun q hq => ?_⟩
            · exact q1
            · obtain ⟨x, x1, x2, x3⟩ := q2 q hq
              exact ⟨x, x1, x2, by omega⟩
    · exact ⟨_, _, _, rfl, by simp; exact hself⟩

theorem tokenValue_str {b u : Str} (hb : b.Ok) (hu : u.Ok) (r : List Char) :
    ∃ i v next, tokenValue ('=' :: b ++ NUL :: r) (u ++ NUL :: r) = some (i, v, next) ∧ ∀ q ∈ next, Within r u.length q := by
  have key : ∀ e : Str, e.Ok → e.length ≤ u.length → ∃ i v next, (do
      if pdiff (e ++ NUL :: r) ('=' :: b ++ NUL :: r) < 2 then return (OSIP_SYNTAXERROR, none, none)
      let v ← clrncpy (('=' :: b ++ NUL :: r).drop 1) (pdiff (e ++ NUL :: r) ('=' :: b ++ NUL :: r) - 1)
      let next ← nextElement (if (← deref (e ++ NUL :: r)) = NUL then e ++ NUL :: r else (e ++ NUL :: r).drop 1)
      return (OSIP_SUCCESS, some v, next) : Option (Int × Option Str × Option (List Char))) = some (i, v, next) ∧
        ∀ q ∈ next, Within r u.length q := by
    intro e he hl
    by_cases h : pdiff (e ++ NUL :: r) ('=' :: b ++ NUL :: r) < 2
    · rw [if_pos h]; exact ⟨_, _, _, rfl, by simp⟩
    · rw [if_neg h]
      rw [pdiff_nul] at h
      rw [drop_nul, clrncpy_total hb _ (by rw [pdiff_nul]; omega) (by rw [pdiff_nul]; simp; omega)]
      obtain ⟨c, hc, c1, c2⟩ := deref_str e r
      simp only [hc, Option.bind_eq_bind, Option.bind_some]
      split
      · obtain ⟨next, n1, n2⟩ := nextElement_str he r
        rw [n1]
        refine ⟨_, _, _, rfl, fun q hq => ?_⟩
        obtain ⟨x, x1, x2, x3⟩ := n2 q hq
        exact ⟨x, x1, x2, by omega⟩
      · rename_i hcn
        obtain ⟨t, rfl⟩ := c2 hcn
        obtain ⟨next, n1, n2⟩ := nextElement_str (ok_cons.1 he).2 r
        rw [drop_nul, n1]
        refine ⟨_, _, _, rfl, fun q hq => ?_⟩
        obtain ⟨x, x1, x2, x3⟩ := n2 q hq
        simp only [List.length_cons] at hl
        exact ⟨x, x1, x2, by omega⟩
  rcases cstrchr_cases (c := ',') hu (by decide) r with ⟨-, h⟩ | ⟨a, d, rfl, ha, h⟩
  · obtain ⟨i, v, next, k⟩ := key [] (by simp [Str.Ok]) (by simp)
    refine ⟨i, v, next, ?_, k.2⟩
    rw [← k.1]
    simp only [tokenValue, h, cstr_at hu, Option.bind_eq_bind, Option.bind_some, Option.pure_def, drop_len]
    rfl
  · obtain ⟨i, v, next, k⟩ := key (',' :: d) (ok_append_iff.1 hu).2 (by simp)
    refine ⟨i, v, next, ?_, k.2⟩
    rw [← k.1]
    simp only [tokenValue, h, Option.bind_eq_bind, Option.bind_some, Option.pure_def]

theorem token_str {n : Str} (hn : GoodName n) {s : Str} (hs : s.Ok) (r : List Char) (v : Option Str) :
    ∃ i v' next, token_set n (s ++ NUL :: r) v = some (i, v', next) ∧ ∀ q ∈ next, Within r s.length q := by
  cases v with
  | some v => exact ⟨_, _, _, rfl, by simp; exact ⟨s, hs, rfl, by omega⟩⟩
  | none =>
    obtain ⟨u, u1, u2, u3, u4⟩ := skip_str (cs := [' ', '\t', ',']) (by decide) hs r
    simp only [token_set]
    rcases cstrchr_cases (c := '=') hs (by decide) r with ⟨-, h⟩ | ⟨a, b, e, ha, h⟩
    · rw [h]; exact ⟨_, _, _, rfl, by simp⟩
    · rw [h]
      simp only [cstr_at hs, Option.bind_eq_bind, Option.bind_some]
      split
      · exact ⟨_, _, _, rfl, by simp⟩
      · obtain ⟨k, k1, k2⟩ := c57_strncasecmp hn.1 u1 [] r n.length
        simp only [u4, cbuf, k1, Option.bind_some]
        split
        · obtain ⟨i, v, next, q1, q2⟩ := tokenValue_str (b := b) (by subst e; exact (ok_cons.1 (ok_append_iff.1 hs).2).2) u1 r
          refine ⟨i, v, next, q1, fun q hq => ?_⟩
          obtain ⟨x, x1, x2, x3⟩ := q2 q hq
          exact ⟨x, x1, x2, by omega⟩
        · exact ⟨_, _, _, rfl, by simp; exact ⟨u, u1, rfl, u2⟩⟩

theorem authRound_str (T : List (DirKind × Str)) (hT : ∀ x ∈ T, GoodName x.2) (F : Fields) {s : Str} (hs : s.Ok) (r : List Char) (ok : Bool)
    (N : Nat) (hN : s.length ≤ N) (hok : ok = true → s.length < N) :
    ∃ F' rd, authRound T F (s ++ NUL :: r) ok = some (F', rd) ∧
      ∀ p b, rd = .go p b → Within r N p ∧ (b = true → ∃ m, m < N ∧ Within r m p) := by
  induction T generalizing F s ok with
  | nil =>
    refine ⟨_, _, rfl, ?_⟩
    intro p b h
    cases h
    exact ⟨⟨s, hs, rfl, hN⟩, fun h => ⟨s.length, hok h, s, hs, rfl, by omega⟩⟩
  | cons x T ih =>
    obtain ⟨k, n⟩ := x
    have hn := hT (k, n) (by simp)
    obtain ⟨i, v, next, a1, a2⟩ : ∃ i v' next, authSet k n (s ++ NUL :: r) (F n) = some (i, v', next) ∧ ∀ q ∈ next, Within r s.length q := by
      cases k with
      | quoted => exact quoted_str hn hs r _
      | token => exact token_str hn hs r _
    simp only [authRound, a1, Option.bind_eq_bind, Option.bind_some]
    split
    · exact ⟨_, _, rfl, by intro p b h; cases h⟩
    · cases next with
      | none => exact ⟨_, _, rfl, by intro p b h; cases h⟩
      | some q =>
        obtain ⟨u, u1, rfl, u3⟩ := a2 q rfl
        simp only
        apply ih (fun x hx => hT x (by simp [hx])) _ u1 _ (by omega)
        intro h
        rw [pdiff_nul] at h
        simp only [Bool.or_eq_true, decide_eq_true_eq] at h
        rcases h with h | h
        · have := hok h; omega
        · omega

theorem authBypass_str {s : Str} (hs : s.Ok) (r : List Char) :
    ∃ rd, authBypass (s ++ NUL :: r) = some rd ∧ ∀ p b, rd = .go p b → ∃ m, m < s.length ∧ Within r m p := by
  simp only [authBypass, cstr_at hs, Option.bind_eq_bind, Option.bind_some]
  cases s with
  | nil => exact ⟨_, rfl, by intro p b h; cases h⟩
  | cons c t =>
    have ht := (ok_cons.1 hs).2
    rw [if_neg (by simp), drop_nul]
    rcases cstrchr_cases (c := ',') ht (by decide) r with ⟨-, h⟩ | ⟨a, d, e, ha, h⟩
    · rw [h]; exact ⟨_, rfl, by intro p b h; cases h⟩
    · rw [h]
      have hd : Str.Ok (',' :: d) := by subst e; exact (ok_append_iff.1 ht).2
      have hl : (',' :: d).length ≤ t.length := by subst e; simp
      have hgo : ∀ p b, Round.go (',' :: d ++ NUL :: r) false = Round.go p b → ∃ m, m < (c :: t).length ∧ Within r m p := by
        intro p b h
        cases h
        exact ⟨(',' :: d).length, by simp at hl ⊢; omega, _, hd, rfl, by omega⟩
      simp only [Option.bind_some]
      rcases cquote_find_into hs r with h | ⟨a', u, e', h⟩
      · rw [h]; exact ⟨_, rfl, hgo⟩
      · rw [h]
        simp only [Option.bind_some]
        split
        · rw [drop_nul]
          have hu : Str.Ok u := by rw [e'] at hs; exact (ok_cons.1 (ok_append_iff.1 hs).2).2
          rcases cquote_find_into hu r with h | ⟨b', w, e'', h⟩
          · rw [h]; exact ⟨_, rfl, by intro p b h; cases h⟩
          · rw [h]
            simp only [Option.bind_some]
            split
            · have hw : Str.Ok ('"' :: w) := by rw [e''] at hu; exact (ok_append_iff.1 hu).2
              rcases cstrchr_cases (c := ',') hw (by decide) r with ⟨-, h⟩ | ⟨x, y, ey, hx, h⟩
              · rw [h]; exact ⟨_, rfl, by intro p b h; cases h⟩
              · rw [h]
                refine ⟨_, rfl, ?_⟩
                intro p b h
                cases h
                have l1 := congrArg List.length e'
                have l2 := congrArg List.length e''
                have l3 := congrArg List.length ey
                simp only [List.length_append, List.length_cons] at l1 l2 l3
                exact ⟨(',' :: y).length, by simp; omega, _, by rw [ey] at hw; exact (ok_append_iff.1 hw).2, rfl, by omega⟩
            · exact ⟨_, rfl, hgo⟩
        · exact ⟨_, rfl, hgo⟩

theorem authLoop_str {T : List (DirKind × Str)} (hT : ∀ x ∈ T, GoodName x.2) (r : List Char) (n : Nat) (F : Fields) {s : Str} (hs : s.Ok)
    (hn : s.length < n) : ∃ res, authLoop T n F (s ++ NUL :: r) = some res := by
  induction n generalizing F s with
  | zero => omega
  | succ n ih =>
    obtain ⟨F', rd, h1, h2⟩ := authRound_str T hT F hs r false s.length (by omega) (by simp)
    simp only [authLoop, h1, Option.bind_eq_bind, Option.bind_some]
    cases rd with
    | ret i => exact ⟨_, rfl⟩
    | go p b =>
      obtain ⟨w1, w2⟩ := h2 p b rfl
      cases b with
      | true =>
        obtain ⟨m, hm, u, u1, rfl, u3⟩ := w2 rfl
        exact ih _ u1 (by omega)
      | false =>
        obtain ⟨u, u1, rfl, u3⟩ := w1
        obtain ⟨rd, b1, b2⟩ := authBypass_str u1 r
        simp only [b1, Option.bind_some]
        cases rd with
        | ret i => exact ⟨_, rfl⟩
        | go p b =>
          obtain ⟨m, hm, x, x1, rfl, x3⟩ := b2 p b rfl
          exact ih _ x1 (by omega)

theorem www_names : ∀ x ∈ wwwTable, GoodName x.2 := by
  have : ∀ x ∈ wwwTable, NUL ∉ x.2 ∧ ∃ c ∈ x.2.head?, ctolower c ≠ ctolower '=' := by decide +kernel
  intro x hx
  obtain ⟨h1, c, h2, h3⟩ := this x hx
  refine ⟨h1, c, x.2.tail, ?_, h3⟩
  cases h : x.2 with
  | nil => rw [h] at h2; cases h2
  | cons d t => rw [h] at h2; cases h2; rfl

theorem auth_names : ∀ x ∈ authTable, GoodName x.2 := by
  have : ∀ x ∈ authTable, NUL ∉ x.2 ∧ ∃ c ∈ x.2.head?, ctolower c ≠ ctolower '=' := by decide +kernel
  intro x hx
  obtain ⟨h1, c, h2, h3⟩ := this x hx
  refine ⟨h1, c, x.2.tail, ?_, h3⟩
  cases h : x.2 with
  | nil => rw [h] at h2; cases h2
  | cons d t => rw [h] at h2; cases h2; rfl

theorem info_names : ∀ x ∈ infoTable, GoodName x.2 := by
  have : ∀ x ∈ infoTable, NUL ∉ x.2 ∧ ∃ c ∈ x.2.head?, ctolower c ≠ ctolower '=' := by decide +kernel
  intro x hx
  obtain ⟨h1, c, h2, h3⟩ := this x hx
  refine ⟨h1, c, x.2.tail, ?_, h3⟩
  cases h : x.2 with
  | nil => rw [h] at h2; cases h2
  | cons d t => rw [h] at h2; cases h2; rfl

theorem credentials_str {T : List (DirKind × Str)} (hT : ∀ x ∈ T, GoodName x.2) {s : Str} (hs : s.Ok) (r : List Char) :
    ∃ res, credentials_parse T (s ++ NUL :: r) = some res := by
  simp only [credentials_parse]
  rcases cstrchr_cases (c := ' ') hs (by decide) r with ⟨-, h⟩ | ⟨a, b, rfl, ha, h⟩
  · rw [h]; exact ⟨_, rfl⟩
  · rw [h]
    simp only [Option.bind_eq_bind, Option.bind_some]
    obtain ⟨res, hres⟩ := authLoop_str hT r ((' ' :: b ++ NUL :: r).length + 1) (fun _ => none) (s := ' ' :: b) (ok_append_iff.1 hs).2 (by simp; omega)
    split
    · exact ⟨_, rfl⟩
    · rename_i hp
      rw [strncpy_total hs _ (by omega), hres]
      exact ⟨_, rfl⟩

/-- **C82**. The parsers of WWW-Authenticate, Authorization and Authentication-Info on every string, with any bytes after the terminator:
they read nothing outside the string and its terminator, and end. -/
theorem c82_auth_in_bounds {s : Str} (hs : s.Ok) (r : List Char) :
    (∃ res, osip_www_authenticate_parse (s ++ NUL :: r) = some res) ∧ (∃ res, osip_authorization_parse (s ++ NUL :: r) = some res) ∧
    ∃ res, osip_authentication_info_parse (s ++ NUL :: r) = some res := by
  refine ⟨credentials_str www_names hs r, credentials_str auth_names hs r, ?_⟩
  obtain ⟨res, hres⟩ := authLoop_str info_names r ((s ++ NUL :: r).length + 1) (fun _ => none) hs (by simp; omega)
  simp only [osip_authentication_info_parse]
  rcases cstrchr_cases (c := ' ') hs (by decide) r with ⟨-, h1⟩ | ⟨a, b, e, ha, h1⟩
  · rcases cstrchr_cases (c := '=') hs (by decide) r with ⟨-, h2⟩ | ⟨a', b', e', ha', h2⟩
    · rw [h1, h2]; simp only [Option.bind_eq_bind, Option.bind_some, hres]; exact ⟨_, rfl⟩
    · rw [h1, h2]; simp only [Option.bind_eq_bind, Option.bind_some, hres]; exact ⟨_, rfl⟩
  · rcases cstrchr_cases (c := '=') hs (by decide) r with ⟨-, h2⟩ | ⟨a', b', e', ha', h2⟩
    · rw [h1, h2]; simp only [Option.bind_eq_bind, Option.bind_some, hres]; exact ⟨_, rfl⟩
    · rw [h1, h2]
      simp only [Option.bind_eq_bind, Option.bind_some]
      split
      · have hb : Str.Ok (' ' :: b) := by rw [e] at hs; exact (ok_append_iff.1 hs).2
        obtain ⟨res', hres'⟩ := authLoop_str info_names r ((' ' :: b ++ NUL :: r).length + 1) (fun _ => none) hb (by simp; omega)
        rw [strncpy_total hs _ (by rw [pdiff_nul, e]; simp), hres']
        exact ⟨_, rfl⟩
      · rw [hres]; exact ⟨_, rfl⟩

/-- **C83** does not hold. An extension directive whose name begins with the name of a field that takes a token is stored in that field;
a value without quotes in a field that takes a quoted string swallows the quoted string of the next directive; a last directive of less
than six characters is forgotten. -/
theorem c83_violated :
    (osip_authorization_parse ("Digest ncount=5, uri=\"sip:a\"".toList ++ [NUL])).map (fun x => x.2.2 "nc".toList) = some (some "5".toList) ∧
    (osip_www_authenticate_parse ("Digest qop=auth, nonce=\"abc\"".toList ++ [NUL])).map (fun x =>
      (x.2.2 "qop".toList, x.2.2 "nonce".toList)) = some (some "\"abc\"".toList, none) ∧
    (osip_authorization_parse ("Digest uri=\"sip:a\", nc=1".toList ++ [NUL])).map (fun x => (x.1, x.2.2 "nc".toList)) =
      some (OSIP_SUCCESS, none) := by decide +kernel

/-- **C83** otherwise: directives no field knows do not change what is read. Missing: names that begin with the name of a field that takes a
token, see `c83_violated`. -/
theorem c83_unknown_partial {t : Str} (ht : t.Ok) (h0 : t ≠ []) (hsp : ' ' ∉ t) {ds : List Directive}
    (hwf : ∀ d ∈ ds, WfDirective authTable d) (known : Directive → Bool)
    (hk : ∀ d, known d = false → ∀ x ∈ authTable, lower x.2 ≠ lower d.name) (hds : ds.filter known ≠ []) (r r' : List Char) :
    osip_authorization_parse (t ++ ' ' :: (dirsText ds ++ NUL :: r)) =
      osip_authorization_parse (t ++ ' ' :: (dirsText (ds.filter known) ++ NUL :: r')) := by
  have hne : ds ≠ [] := by
    intro e; subst e; exact hds rfl
  rw [c80_authorization ht h0 hsp hne hwf, c80_authorization ht h0 hsp hds (fun d hd => hwf d (List.mem_filter.1 hd).1)]
  congr 3
  funext n
  simp only [dirFields]
  split
  · rename_i hn
    obtain ⟨x, hx, rfl⟩ := List.mem_map.1 hn
    simp only [dirValue, List.find?_filter]
    congr 2
    funext d
    cases hd : known d with
    | true => simp
    | false => simp [hk d hd x hx]
  · rfl

/-- A directive that no field knows, a comma inside a quoted string, an unquoted value for a quoted field. -/
example : ((osip_authorization_parse ("Digest x=y , foo=\"a,b\",  uri=\"sip:a\"".toList ++ [NUL, 'z'])).map fun x =>
    (x.1, x.2.1, x.2.2 "uri".toList)) = some (OSIP_SUCCESS, some "Digest".toList, some "\"sip:a\"".toList) := by decide +kernel
example : ((osip_www_authenticate_parse ("Digest qop=auth, nonce=\"abc\"".toList ++ [NUL])).map fun x =>
    (x.1, x.2.2 "qop".toList, x.2.2 "nonce".toList)) = some (OSIP_SUCCESS, some "\"abc\"".toList, none) := by decide +kernel
example : ((osip_www_authenticate_parse ("Digest realm = ".toList ++ [NUL])).map fun x => x.1) = some OSIP_SYNTAXERROR := by decide +kernel
example : ((osip_authentication_info_parse ("=".toList ++ [NUL])).map fun x => x.1) = some OSIP_SUCCESS := by decide +kernel

end Osip
