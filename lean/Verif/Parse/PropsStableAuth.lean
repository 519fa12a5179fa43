import Verif.Parse.PropsStable
import Verif.Parse.PropsAuthBounds

/-!
# C127: WWW-Authenticate, Authorization and Authentication-Info which were read are written so that they are read the same
-/

set_option autoImplicit false

namespace Osip

/-! ## Specification -/

/-- Some field is set, and the tokens are tokens (or quoted strings) that are not too short, see `__osip_token_set`. -/
def AuthPlain (T : List (DirKind × Str)) (F : Fields) : Prop :=
  (∃ n, F n ≠ none) ∧
  ∀ n, (DirKind.token, n) ∈ T → ∀ v ∈ F n, v ≠ [] ∧ ('"' ∉ v ∨ IsQuoted v ∧ v ≠ "\"\"".toList) ∧ 5 ≤ n.length + v.length

/-! ## Lemmas -/

/-- What a field of a kind holds after reading. -/
def ReadAs (k : DirKind) (v : Str) : Prop :=
  match k with
  | .quoted => IsQuoted v ∧ v ≠ "\"\"".toList
  | .token => v.Ok ∧ Trimmed v ∧ ',' ∉ v

theorem quotedValue_read {s : Str} (hs : s.Ok) {r : List Char} {i : Int} {v : Option Str} {next : Option (List Char)}
    (h : quotedValue (s ++ NUL :: r) = some (i, v, next)) : ∀ x ∈ v, ReadAs .quoted x := by
  simp only [quotedValue] at h
  rcases cquote_find_into hs r with e | ⟨a, u, rfl, e⟩
  · rw [e] at h; cases h; simp
  · rw [e] at h
    simp only [Option.bind_eq_bind, Option.bind_some] at h
    obtain ⟨ha, hu⟩ := ok_append_iff.1 hs
    have hu' := (ok_cons.1 hu).2
    rw [drop_nul] at h
    rcases quoted_or_open hu' with hno | ⟨body, tail, rfl, hqt⟩
    · rw [noEnd_find hu' hno] at h; cases h; simp
    · obtain ⟨hbo, hto⟩ := ok_append_iff.1 hu'
      have hto := (ok_cons.1 hto).2
      have q := quote_find_qtext hqt hbo hto r
      rw [List.append_assoc, q] at h
      simp only [Option.bind_some] at h
      have e1 := strncpy_at (a := '"' :: (body ++ ['"'])) (ok_cons.2 ⟨by decide, ok_append hbo (by decide)⟩) hto r
        (n := (body.length : Int) + 1 + 1) (by simp)
      have e2 : '"' :: (body ++ '"' :: tail) ++ NUL :: r = '"' :: (body ++ ['"']) ++ (tail ++ NUL :: r) := by simp
      have e3 : pdiff ('"' :: tail ++ NUL :: r) ('"' :: (body ++ '"' :: tail) ++ NUL :: r) = body.length + 1 := by
        rw [pdiff_nul]; simp; omega
      rw [e3, e2, e1] at h
      simp only [Option.bind_some] at h
      obtain ⟨nx, hnx, -⟩ := nextElement_str hto r
      rw [drop_nul, hnx] at h
      simp only [Option.bind_some] at h
      split at h
      · cases h; simp
      · rename_i hl
        cases h
        intro x hx
        cases hx
        refine ⟨⟨body, hqt, hbo, rfl⟩, fun e => hl ?_⟩
        have := congrArg List.length e
        simp at this
        simp [this]

theorem quoted_read {n : Str} {s : Str} (hs : s.Ok) {r : List Char} {v : Option Str} (hv : ∀ x ∈ v, ReadAs .quoted x)
    {i : Int} {v' : Option Str} {next : Option (List Char)} (h : quoted_string_set n (s ++ NUL :: r) v = some (i, v', next)) :
    ∀ x ∈ v', ReadAs .quoted x := by
  cases v with
  | some v => cases h; exact hv
  | none =>
    obtain ⟨u, u1, u2, u3, u4⟩ := skip_str (cs := [' ', '\t', ',']) (by decide) hs r
    simp only [quoted_string_set, u4, Option.bind_eq_bind, Option.bind_some] at h
    obtain ⟨k, hk, h⟩ := Option.bind_eq_some_iff.1 h
    split at h
    · obtain ⟨o, ho, h⟩ := Option.bind_eq_some_iff.1 h
      cases o with
      | none => cases h; simp
      | some hack =>
        obtain ⟨m, hm, h⟩ := Option.bind_eq_some_iff.1 h
        split at h
        · cases h; simp
        · exact quotedValue_read u1 h
    · cases h; simp

/-- The token is the text between the equals sign and the comma. -/
theorem tokenValue_read {a b u : Str} (hu : u.Ok) (e : u = a ++ '=' :: b) {r : List Char} {i : Int} {v : Option Str}
    {next : Option (List Char)} (h : tokenValue ('=' :: b ++ NUL :: r) (u ++ NUL :: r) = some (i, v, next)) : ∀ x ∈ v, ReadAs .token x := by
  have hbo : Str.Ok b := by subst e; exact (ok_cons.1 (ok_append_iff.1 hu).2).2
  -- the end is at `y`, and there is no comma before it
  have key : ∀ x y : Str, u = x ++ y → ',' ∉ x → (do
      if pdiff (y ++ NUL :: r) ('=' :: b ++ NUL :: r) < 2 then return (OSIP_SYNTAXERROR, none, none)
      let v ← clrncpy (('=' :: b ++ NUL :: r).drop 1) (pdiff (y ++ NUL :: r) ('=' :: b ++ NUL :: r) - 1)
      let next ← nextElement (if (← deref (y ++ NUL :: r)) = NUL then y ++ NUL :: r else (y ++ NUL :: r).drop 1)
      return (OSIP_SUCCESS, some v, next) : Option (Int × Option Str × Option (List Char))) = some (i, v, next) → ∀ x ∈ v, ReadAs .token x := by
    intro x y exy hx hk
    split at hk
    · cases hk; simp
    · rename_i hp
      rw [pdiff_nul] at hp
      simp only [List.length_cons] at hp
      rw [drop_nul, clrncpy_total hbo _ (by rw [pdiff_nul]; simp; omega) (by rw [pdiff_nul]; simp; omega)] at hk
      simp only [Option.bind_eq_bind, Option.bind_some] at hk
      obtain ⟨c, -, hk⟩ := Option.bind_eq_some_iff.1 hk
      obtain ⟨nx, -, hk⟩ := Option.bind_eq_some_iff.1 hk
      cases hk
      intro z hz
      cases hz
      refine ⟨trim_ok (Str.take_ok hbo _), trim_trim _, trim_mem fun hm => hx ?_⟩
      rw [pdiff_nul] at hm
      rw [e] at exy
      rcases List.append_eq_append_iff.1 exy with ⟨w, e1, e2⟩ | ⟨w, e1, e2⟩
      · -- the comma is after the equals sign
        cases w with
        | nil => simp only [List.nil_append] at e2; subst e2; simp at hp
        | cons q w =>
          simp only [List.cons_append, List.cons.injEq] at e2
          obtain ⟨rfl, rfl⟩ := e2
          have : (((('=' :: (w ++ y)).length : Int) - y.length) - 1).toNat = w.length := by simp; omega
          rw [this, List.take_left] at hm
          rw [e1]; simp [hm]
      · have := congrArg List.length e2
        simp at this
        omega
  rcases cstrchr_cases (c := ',') hu (by decide) r with ⟨hc, hq⟩ | ⟨x, d, rfl, hx, hq⟩
  · refine key u [] (by simp) hc ?_
    rw [← h]
    simp only [tokenValue, hq, cstr_at hu, Option.bind_eq_bind, Option.bind_some, Option.pure_def, drop_len]
    rfl
  · refine key x (',' :: d) rfl hx ?_
    rw [← h]
    simp only [tokenValue, hq, Option.bind_eq_bind, Option.bind_some, Option.pure_def]

theorem token_read {n : Str} {s : Str} (hs : s.Ok) {r : List Char} {v : Option Str} (hv : ∀ x ∈ v, ReadAs .token x)
    {i : Int} {v' : Option Str} {next : Option (List Char)} (h : token_set n (s ++ NUL :: r) v = some (i, v', next)) :
    ∀ x ∈ v', ReadAs .token x := by
  cases v with
  | some v => cases h; exact hv
  | none =>
    obtain ⟨w, u, e, hw, u4⟩ := skipChars_into (cs := [' ', '\t', ',']) (by decide) s r
    simp only [token_set] at h
    rcases cstrchr_cases (c := '=') hs (by decide) r with ⟨-, hq⟩ | ⟨a, b, e', ha, hq⟩
    · rw [hq] at h; cases h; simp
    · rw [hq] at h
      simp only [cstr_at hs, Option.bind_eq_bind, Option.bind_some, u4] at h
      split at h
      · cases h; simp
      · obtain ⟨k, -, h⟩ := Option.bind_eq_some_iff.1 h
        split at h
        · rw [e] at e' hs
          have hu := (ok_append_iff.1 hs).2
          obtain ⟨a', ea⟩ : ∃ a', u = a' ++ '=' :: b := by
            rcases List.append_eq_append_iff.1 e' with ⟨x, e1, e2⟩ | ⟨x, e1, e2⟩
            · exact ⟨x, e2⟩
            · cases x with
              | nil => exact ⟨[], by simpa using e2.symm⟩
              | cons q x =>
                simp only [List.cons_append, List.cons.injEq] at e2
                exact absurd (hw '=' (by rw [e1, ← e2.1]; simp)) (by decide)
          exact tokenValue_read hu ea h
        · cases h; simp

/-- What is known of the fields while a header is read. -/
def FieldsRead (T : List (DirKind × Str)) (F : Fields) : Prop := ∀ n v, F n = some v → ∃ k, (k, n) ∈ T ∧ ReadAs k v

theorem authRound_read {T₀ : List (DirKind × Str)} (hT : GoodTable T₀) (T : List (DirKind × Str)) (hsub : ∀ e ∈ T, e ∈ T₀)
    (hn : ∀ x ∈ T, GoodName x.2) {F : Fields} (hF : FieldsRead T₀ F) {s : Str} (hs : s.Ok) {r : List Char} {ok : Bool} {F' : Fields}
    {rd : Round} (h : authRound T F (s ++ NUL :: r) ok = some (F', rd)) : FieldsRead T₀ F' := by
  induction T generalizing F s ok with
  | nil => cases h; exact hF
  | cons x T ih =>
    obtain ⟨k, n⟩ := x
    have hk := hsub (k, n) (by simp)
    have hg := hn (k, n) (by simp)
    have hold : ∀ x ∈ F n, ReadAs k x := by
      intro x hx
      obtain ⟨k', hk', hr⟩ := hF n x hx
      have := table_unique hT.distinct hk hk' rfl
      cases this
      exact hr
    obtain ⟨i, v, next, a1, a2⟩ : ∃ i v' next, authSet k n (s ++ NUL :: r) (F n) = some (i, v', next) ∧ ∀ q ∈ next, Within r s.length q := by
      cases k with
      | quoted => exact quoted_str hg hs r _
      | token => exact token_str hg hs r _
    have hnew : ∀ x ∈ v, ReadAs k x := by
      cases k with
      | quoted => exact quoted_read hs hold a1
      | token => exact token_read hs hold a1
    have hset : FieldsRead T₀ (F.set n v) := by
      intro m y hy
      simp only [Fields.set] at hy
      split at hy
      · rename_i e; subst e; exact ⟨k, hk, hnew y hy⟩
      · exact hF m y hy
    simp only [authRound, a1, Option.bind_eq_bind, Option.bind_some] at h
    split at h
    · cases h; exact hset
    · cases next with
      | none => cases h; exact hset
      | some q =>
        obtain ⟨u, u1, rfl, -⟩ := a2 q rfl
        exact ih (fun e he => hsub e (by simp [he])) (fun x hx => hn x (by simp [hx])) hset u1 h

theorem authLoop_read {T : List (DirKind × Str)} (hT : GoodTable T) (hn : ∀ x ∈ T, GoodName x.2) {r : List Char} {n : Nat} {F : Fields}
    (hF : FieldsRead T F) {s : Str} (hs : s.Ok) {i : Int} {F' : Fields} (h : authLoop T n F (s ++ NUL :: r) = some (i, F')) :
    FieldsRead T F' := by
  induction n generalizing F s with
  | zero => cases h
  | succ n ih =>
    obtain ⟨F1, rd, h1, h2⟩ := authRound_str T hn F hs r false s.length (by omega) (by simp)
    have hF1 := authRound_read hT T (fun _ h => h) hn hF hs h1
    simp only [authLoop, h1, Option.bind_eq_bind, Option.bind_some] at h
    cases rd with
    | ret j => cases h; exact hF1
    | go p b =>
      obtain ⟨w1, w2⟩ := h2 p b rfl
      cases b with
      | true =>
        obtain ⟨u, u1, rfl, -⟩ := w1
        exact ih hF1 u1 h
      | false =>
        obtain ⟨u, u1, rfl, -⟩ := w1
        obtain ⟨rd, b1, b2⟩ := authBypass_str u1 r
        simp only [b1, Option.bind_some] at h
        cases rd with
        | ret j => cases h; exact hF1
        | go p b =>
          obtain ⟨m, hm, x, x1, rfl, x3⟩ := b2 p b rfl
          exact ih hF1 x1 h

theorem fieldsRead_none (T : List (DirKind × Str)) : FieldsRead T fun _ => none := fun _ _ h => by cases h

theorem fieldsRead_wf {T : List (DirKind × Str)} (hT : GoodTable T) {F : Fields} (hF : FieldsRead T F) (hp : AuthPlain T F) : WfFields T F where
  known n hn := by
    cases h : F n with
    | none => rfl
    | some v =>
      obtain ⟨k, hk, -⟩ := hF n v h
      exact absurd (List.mem_map_of_mem (f := (·.2)) hk) hn
  some := hp.1
  value k n hk v hv := by
    obtain ⟨k', hk', hr⟩ := hF n v hv
    have := table_unique hT.distinct hk hk' rfl
    cases this
    cases k with
    | quoted => exact hr
    | token =>
      obtain ⟨p1, p2, p3⟩ := hp.2 n hk v hv
      exact ⟨⟨p1, hr.1, hr.2.1, hr.2.2, p2⟩, p3⟩

theorem credentials_stored {T : List (DirKind × Str)} (hT : GoodTable T) (hn : ∀ x ∈ T, GoodName x.2) {s : Str} (hs : s.Ok) {r : List Char}
    {o : Option Str} {F : Fields} (h : credentials_parse T (s ++ NUL :: r) = some (OSIP_SUCCESS, o, F)) :
    FieldsRead T F ∧ ∃ t : Str, o = some t ∧ t.Ok ∧ t ≠ [] ∧ ' ' ∉ t := by
  simp only [credentials_parse] at h
  rcases cstrchr_cases (c := ' ') hs (by decide) r with ⟨-, e⟩ | ⟨a, b, rfl, ha, e⟩
  · rw [e] at h; cases h
  · rw [e] at h
    simp only [Option.bind_eq_bind, Option.bind_some] at h
    obtain ⟨hao, hbo⟩ := ok_append_iff.1 hs
    have hp : pdiff (' ' :: b ++ NUL :: r) (a ++ ' ' :: b ++ NUL :: r) = a.length := by rw [pdiff_nul]; simp
    rw [hp] at h
    split at h
    · cases h
    · rename_i hl
      have e1 := strncpy_at hao hbo r (n := (a.length : Int)) rfl
      rw [List.append_assoc, e1] at h
      simp only [Option.bind_some] at h
      obtain ⟨⟨i, F1⟩, hF1, h⟩ := Option.bind_eq_some_iff.1 h
      cases h
      refine ⟨authLoop_read hT hn (fieldsRead_none T) hbo hF1, a, rfl, hao, ?_, ha⟩
      rintro rfl
      simp at hl

theorem info_read {s : Str} (hs : s.Ok) {r : List Char} {o : Option Str} {F : Fields}
    (h : osip_authentication_info_parse (s ++ NUL :: r) = some (OSIP_SUCCESS, o, F)) :
    FieldsRead infoTable F ∧ ∀ x ∈ o, Str.Ok x ∧ ' ' ∉ x ∧ '=' ∉ x := by
  have plain : (do
      let (i, F) ← authLoop infoTable ((s ++ NUL :: r).length + 1) (fun _ => none) (s ++ NUL :: r)
      return (i, none, F) : Option (Int × Option Str × Fields)) = some (OSIP_SUCCESS, o, F) →
      FieldsRead infoTable F ∧ ∀ x ∈ o, Str.Ok x ∧ ' ' ∉ x ∧ '=' ∉ x := by
    intro h
    obtain ⟨⟨i, F1⟩, hF1, h⟩ := Option.bind_eq_some_iff.1 h
    cases h
    exact ⟨authLoop_read infoTable_good info_names (fieldsRead_none _) hs hF1, by simp⟩
  simp only [osip_authentication_info_parse] at h
  rcases cstrchr_cases (c := ' ') hs (by decide) r with ⟨-, h1⟩ | ⟨a, b, e, ha, h1⟩
  · rcases cstrchr_cases (c := '=') hs (by decide) r with ⟨-, h2⟩ | ⟨a', b', e', ha', h2⟩
    · rw [h1, h2] at h; exact plain h
    · rw [h1, h2] at h; exact plain h
  · rcases cstrchr_cases (c := '=') hs (by decide) r with ⟨-, h2⟩ | ⟨a', b', e', ha', h2⟩
    · rw [h1, h2] at h; exact plain h
    · rw [h1, h2] at h
      simp only [Option.bind_eq_bind, Option.bind_some] at h
      split at h
      · rename_i hgt
        rw [pdiff_nul] at hgt
        have hso := hs
        rw [e] at hso
        obtain ⟨hao, hbo⟩ := ok_append_iff.1 hso
        have hp : pdiff (' ' :: b ++ NUL :: r) (s ++ NUL :: r) = a.length := by rw [pdiff_nul, e]; simp
        have e1 := strncpy_at hao hbo r (n := (a.length : Int)) rfl
        rw [hp, show s ++ NUL :: r = a ++ (' ' :: b ++ NUL :: r) from by rw [e]; simp, e1] at h
        simp only [Option.bind_some] at h
        obtain ⟨⟨i, F1⟩, hF1, h⟩ := Option.bind_eq_some_iff.1 h
        cases h
        refine ⟨authLoop_read infoTable_good info_names (fieldsRead_none _) hbo hF1, fun x hx => ?_⟩
        cases hx
        refine ⟨hao, ha, fun hm => ?_⟩
        -- an equals sign before the space would be the first one
        have : a.length ≤ a'.length := by
          have l1 := congrArg List.length e
          have l2 := congrArg List.length e'
          simp only [List.length_append, List.length_cons] at l1 l2 hgt
          omega
        rw [e] at e'
        rcases List.append_eq_append_iff.1 e' with ⟨w, x1, x2⟩ | ⟨w, x1, x2⟩
        · exact ha' (by rw [x1]; simp [hm])
        · have : w = [] := by
            have := congrArg List.length x1
            simp only [List.length_append] at this
            exact List.eq_nil_of_length_eq_zero (by omega)
          subst this
          rw [List.append_nil] at x1
          exact ha' (x1 ▸ hm)
      · exact plain h

/-! ## Theorems -/

/-- **C127** for WWW-Authenticate (and Proxy-Authenticate). Missing: no field was read, or an empty token or one with a stray quote. -/
theorem c127_www_authenticate_partial {s : Str} (hs : s.Ok) {r : List Char} {o : Option Str} {F : Fields}
    (h : osip_www_authenticate_parse (s ++ NUL :: r) = some (OSIP_SUCCESS, o, F)) (hp : AuthPlain wwwTable F) :
    ∃ text, osip_www_authenticate_to_str o F = some (OSIP_SUCCESS, some text) ∧
      ∀ r', osip_www_authenticate_parse (text ++ NUL :: r') = some (OSIP_SUCCESS, o, F) := by
  obtain ⟨hF, t, rfl, h1, h2, h3⟩ := credentials_stored wwwTable_good www_names hs h
  exact c80_www_authenticate_round_trip h1 h2 h3 (fieldsRead_wf wwwTable_good hF hp)

/-- **C127** for Authorization (and Proxy-Authorization). Missing: no field was read, or an empty token, one with a stray quote or one of
less than six characters together with its name and the equals sign. -/
theorem c127_authorization_partial {s : Str} (hs : s.Ok) {r : List Char} {o : Option Str} {F : Fields}
    (h : osip_authorization_parse (s ++ NUL :: r) = some (OSIP_SUCCESS, o, F)) (hp : AuthPlain authTable F) :
    ∃ text, osip_authorization_to_str o F = some (OSIP_SUCCESS, some text) ∧
      ∀ r', osip_authorization_parse (text ++ NUL :: r') = some (OSIP_SUCCESS, o, F) := by
  obtain ⟨hF, t, rfl, h1, h2, h3⟩ := credentials_stored authTable_good auth_names hs h
  exact c80_authorization_round_trip h1 h2 h3 (fieldsRead_wf authTable_good hF hp)

/-- **C127** for Authentication-Info. Missing: as for Authorization, and `nextnonce` and `opaque` together, see `c81_violated`. -/
theorem c127_authentication_info_partial {s : Str} (hs : s.Ok) {r : List Char} {o : Option Str} {F : Fields}
    (h : osip_authentication_info_parse (s ++ NUL :: r) = some (OSIP_SUCCESS, o, F)) (hp : AuthPlain infoTable F)
    (hno : F "nextnonce".toList = none ∨ F "opaque".toList = none) :
    ∃ text, osip_authentication_info_to_str o F = some (OSIP_SUCCESS, some text) ∧
      ∀ r', osip_authentication_info_parse (text ++ NUL :: r') = some (OSIP_SUCCESS, o, F) := by
  obtain ⟨hF, ht⟩ := info_read hs h
  exact c81_authentication_info_round_trip_partial ht (fieldsRead_wf infoTable_good hF hp) hno

/-- What is written of a value that was read. -/
def againText (parse : List Char → Option (Int × Option Str × Fields)) (write : Option Str → Fields → Option (Int × Option Str)) (s : Str) :
    Option Str := do
  let (i, o, F) ← parse (s ++ [NUL])
  if i ≠ OSIP_SUCCESS then none
  let (_, text) ← write o F
  text

/-- **C127** does not hold for these headers. A WWW-Authenticate without known directive is accepted, but what is written is refused; a
short `nc` is lost if `qop` came after it, as it is written last; for an Authentication-Info with `nextnonce` and `opaque` the block is
too small. -/
theorem c127_auth_violated :
    againText osip_www_authenticate_parse osip_www_authenticate_to_str "Digest foo=\"bar\", x=\"y\"".toList = some "Digest".toList ∧
    (osip_www_authenticate_parse ("Digest".toList ++ [NUL])).map (·.1) = some OSIP_SYNTAXERROR ∧
    (osip_authorization_parse ("Digest nc=1, qop=auth".toList ++ [NUL])).map (fun x => (x.1, x.2.2 "nc".toList)) =
      some (OSIP_SUCCESS, some "1".toList) ∧
    againText osip_authorization_parse osip_authorization_to_str "Digest nc=1, qop=auth".toList = some "Digest qop=auth, nc=1".toList ∧
    (osip_authorization_parse ("Digest qop=auth, nc=1".toList ++ [NUL])).map (fun x => (x.1, x.2.2 "nc".toList)) =
      some (OSIP_SUCCESS, none) ∧
    ((osip_authentication_info_parse ("nextnonce=\"a\", opaque=\"b\"".toList ++ [NUL])).map fun x =>
      (x.1, osip_authentication_info_to_str x.2.1 x.2.2)) = some (OSIP_SUCCESS, none) := by decide +kernel

/-- Blanks, another order, an unknown directive, an empty quoted string and a quoted token. -/
example : againText osip_authorization_parse osip_authorization_to_str
    "Digest  qop=\"auth\",\t NC=00000001 ,x=1, opaque=\"\",uri = \"sip:a,b\", username=\"bob\\\"\"".toList =
    some "Digest username=\"bob\\\"\", uri=\"sip:a,b\", qop=\"auth\", nc=00000001".toList ∧
  againText osip_authorization_parse osip_authorization_to_str "Digest username=\"bob\\\"\", uri=\"sip:a,b\", qop=\"auth\", nc=00000001".toList =
    some "Digest username=\"bob\\\"\", uri=\"sip:a,b\", qop=\"auth\", nc=00000001".toList := by decide +kernel

end Osip
