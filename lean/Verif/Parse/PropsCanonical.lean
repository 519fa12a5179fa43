import Verif.Parse.PropsUri

/-!
# C111: the canonical text of a URI
-/

set_option autoImplicit false

namespace Osip

/-! ## Specification -/

/-- A name and a value behind a separator. -/
def plainPair (sep : Char) (p : Param) : Str := sep :: (p.gname ++ (match p.gvalue with | none => [] | some v => '=' :: v))

/-- User and password. -/
def plainUser (user password : Option Str) : Str :=
  match user with
  | none => []
  | some x => x ++ ((match password with | none => [] | some y => ':' :: y) ++ ['@'])

/-- The headers: one behind a question mark, the others behind an ampersand. -/
def plainHeaders : List Param → Str
  | [] => []
  | h :: hs => plainPair '?' h ++ hs.flatMap (plainPair '&')

/-- A URI with the bytes of its components as they are. -/
def plainUri (scheme : Str) (user password : Option Str) (host : Str) (port : Option Str) (params headers : List Param) : Str :=
  scheme ++ ':' :: (plainUser user password ++ ((if ':' ∈ host then '[' :: (host ++ [']']) else host) ++
    ((match port with | none => [] | some p => ':' :: p) ++ (params.flatMap (plainPair ';') ++ plainHeaders headers))))

/-- All characters may be written without escape in their component. -/
structure SimpleUri (u : Uri) : Prop where
  username : ∀ x ∈ u.username, ∀ c ∈ x, AllowedIn "-_.!~*'()&=+$,;?/".toList c
  password : ∀ x ∈ u.password, ∀ c ∈ x, AllowedIn "-_.!~*'()&=+$,".toList c
  url_params : ∀ p ∈ u.url_params, (∀ c ∈ p.gname, AllowedIn "-_.!~*'()[]/:&+$".toList c) ∧ ∀ v ∈ p.gvalue, ∀ c ∈ v, AllowedIn "-_.!~*'()[]/:&+$".toList c
  url_headers : ∀ p ∈ u.url_headers, (∀ c ∈ p.gname, AllowedIn "-_.!~*'()[]/?:+$".toList c) ∧ ∀ v ∈ p.gvalue, ∀ c ∈ v, AllowedIn "-_.!~*'()[]/?:+$".toList c

/-! ## Unescaping piece by piece -/

theorem unescaped_encodes_append {sscanf : Str → Option Nat} (hsc : SscanfOk sscanf) {allowed : Char → Prop}
    (hpc : ¬ allowed '%') {s e : Str} (h : Encodes allowed s e) (r : Str) : unescaped sscanf (e ++ r) = s ++ unescaped sscanf r := by
  induction h with
  | nil => rfl
  | plain hc _ ih =>
    rw [List.cons_append, unescaped_plain _ (fun hx => hpc (hx ▸ hc)), ih]; rfl
  | @escaped c s e h l x y hh hl hv _ ih =>
    have h1 := hsc h l (e ++ r) x y hh hl
    have h2 := hexValue_isHex hl
    have h3 := hexValue_isHex hh
    simp only [List.cons_append]
    rw [unescaped.eq_2, h1]
    simp only [h2.1, if_true, ih]
    congr 1
    rw [← hv, Nat.mod_eq_of_lt (by omega), Char.ofNat_toNat]

theorem unescaped_raw (sscanf : Str → Option Nat) {s : Str} (h : '%' ∉ s) (r : Str) : unescaped sscanf (s ++ r) = s ++ unescaped sscanf r := by
  induction s with
  | nil => rfl
  | cons c s ih =>
    rw [List.cons_append, unescaped_plain _ (by rintro rfl; exact h (by simp)), ih (fun k => h (by simp [k]))]
    rfl

theorem unescaped_enc {sscanf : Str → Option Nat} (hsc : SscanfOk sscanf) {dfn s : Str} (hs : Bytes s) (hd : '%' ∉ dfn) (r : Str) :
    unescaped sscanf (enc dfn s ++ r) = s ++ unescaped sscanf r := by
  have hno : ¬ AllowedIn dfn '%' := by
    rw [← allowedIn_iff]; intro h; apply hd
    simp only [Bool.or_eq_true, List.contains_iff_mem, show isAlphanum '%' = false from rfl, Bool.false_eq_true, false_or] at h
    exact h
  exact unescaped_encodes_append hsc hno (esc_encodes hs.2.1) r

theorem enc_simple {dfn s : Str} (h : ∀ c ∈ s, AllowedIn dfn c) : enc dfn s = s := by
  induction s with
  | nil => rfl
  | cons c s ih =>
    have h1 : (isAlphanum c || dfn.contains c) = true := (allowedIn_iff dfn c).2 (h c (by simp))
    have := ih fun c hc => h c (by simp [hc])
    unfold enc at this ⊢
    rw [List.flatMap_cons, this]
    simp only [escChar, h1, if_true]
    rfl

theorem unescaped_char (sscanf : Str → Option Nat) {c : Char} (h : c ≠ '%') (r : Str) : unescaped sscanf (c :: r) = c :: unescaped sscanf r :=
  unescaped_plain _ h r

theorem unescaped_params {sscanf : Str → Option Nat} (hsc : SscanfOk sscanf) {ps : List Param}
    (h : ∀ p ∈ ps, Bytes p.gname ∧ ∀ v ∈ p.gvalue, Bytes v) (r : Str) :
    unescaped sscanf ((ps.map encParam).flatMap paramToStr ++ r) = ps.flatMap (plainPair ';') ++ unescaped sscanf r := by
  induction ps with
  | nil => rfl
  | cons p ps ih =>
    have h1 := h p (by simp)
    have h2 := ih fun q hq => h q (by simp [hq])
    obtain ⟨n, v⟩ := p
    simp only [List.map_cons, List.flatMap_cons, List.append_assoc]
    cases v with
    | none =>
      simp only [encParam, Option.map_none, paramToStr, List.cons_append, plainPair, List.append_nil]
      rw [unescaped_char _ (by decide), unescaped_enc hsc h1.1 (by decide), h2]
    | some v =>
      simp only [encParam, Option.map_some, paramToStr, List.cons_append, plainPair, List.append_assoc]
      rw [unescaped_char _ (by decide), unescaped_enc hsc h1.1 (by decide), unescaped_char _ (by decide),
        unescaped_enc hsc (h1.2 v rfl) (by decide), h2]

theorem unescaped_header {sscanf : Str → Option Nat} (hsc : SscanfOk sscanf) {sep : Char} (hsep : sep ≠ '%') {p : Param}
    (h : Bytes p.gname ∧ ∃ v, p.gvalue = some v ∧ Bytes v) (r : Str) :
    unescaped sscanf (sep :: (headerText p ++ r)) = plainPair sep p ++ unescaped sscanf r := by
  obtain ⟨n, v⟩ := p
  obtain ⟨h1, v, rfl, h2⟩ := h
  simp only [headerText, Option.getD_some, List.append_assoc, List.cons_append, plainPair]
  rw [unescaped_char _ hsep, unescaped_enc hsc h1 (by decide), unescaped_char _ (by decide), unescaped_enc hsc h2 (by decide)]

theorem unescaped_headers {sscanf : Str → Option Nat} (hsc : SscanfOk sscanf) {ps : List Param}
    (h : ∀ p ∈ ps, Bytes p.gname ∧ ∃ v, p.gvalue = some v ∧ Bytes v) :
    unescaped sscanf (headersText ps) = plainHeaders ps := by
  cases ps with
  | nil => simp [headersText, plainHeaders, unescaped]
  | cons p ps =>
    simp only [headersText, plainHeaders]
    rw [unescaped_header hsc (by decide) (h p (by simp))]
    congr 1
    have h' : ∀ p ∈ ps, Bytes p.gname ∧ ∃ v, p.gvalue = some v ∧ Bytes v := fun q hq => h q (by simp [hq])
    clear h
    induction ps with
    | nil => simp [unescaped]
    | cons q ps ih =>
      simp only [List.flatMap_cons, List.cons_append]
      rw [unescaped_header hsc (by decide) (h' q (by simp)), ih fun q hq => h' q (by simp [hq])]

theorem unescaped_uriText {sscanf : Str → Option Nat} (hsc : SscanfOk sscanf) {u : Uri} (hu : WfUri u) {sc host : Str}
    (s1 : u.scheme = some sc) (s2 : u.host = some host) (hh : '%' ∉ host) (hp : ∀ p ∈ u.port, '%' ∉ p) :
    unescaped sscanf (uriText sc host u) = plainUri sc u.username u.password host u.port u.url_params u.url_headers := by
  obtain ⟨⟨sc', e1, _, e3⟩, g2, g3, _, _, g6, g7, _⟩ := hu
  rw [s1] at e1; cases e1
  have hsc' : '%' ∉ sc := letter_ne e3 (by decide)
  have hH : ∀ r, unescaped sscanf (hostText host ++ r) = hostText host ++ unescaped sscanf r := by
    intro r; apply unescaped_raw; unfold hostText; split <;> simp [hh]
  have hP : ∀ r, unescaped sscanf (portText u.port ++ r) = portText u.port ++ unescaped sscanf r := by
    intro r; apply unescaped_raw
    cases h : u.port with
    | none => simp [portText]
    | some p => simp [portText, hp p h]
  have hU : ∀ r, unescaped sscanf (userText u.username u.password ++ r) = plainUser u.username u.password ++ unescaped sscanf r := by
    intro r
    cases hx : u.username with
    | none => rfl
    | some x =>
      simp only [userText, plainUser, List.append_assoc]
      rw [unescaped_enc hsc (g2 x hx).1 (by decide)]
      cases hy : u.password with
      | none =>
        simp only [List.nil_append, List.cons_append]
        rw [unescaped_char _ (by decide)]
      | some y =>
        simp only [List.cons_append, List.append_assoc, List.nil_append]
        rw [unescaped_char _ (by decide), unescaped_enc hsc (g3 y hy).1 (by decide), unescaped_char _ (by decide)]
  unfold uriText
  rw [unescaped_raw _ hsc', unescaped_char _ (by decide), hU, hH, hP,
    unescaped_params hsc fun p hp => ⟨(g6 p hp).1, fun v hv => ((g6 p hp).2.2.2.2 v hv).1⟩,
    unescaped_headers hsc fun p hp => ⟨(g7 p hp).1, (g7 p hp).2.2.choose, (g7 p hp).2.2.choose_spec.1, (g7 p hp).2.2.choose_spec.2.1⟩]
  rfl

theorem unesc_eq (sscanf : Str → Option Nat) {s : Str} (hs : s.Ok) (hu : (unescaped sscanf s).Ok) : unesc sscanf s = some (unescaped sscanf s) := by
  obtain ⟨u, _, h2, z, h3⟩ := unescape_run sscanf hs []
  rw [unesc, show Str.buf s = s ++ NUL :: [] from rfl, h2, h3, Option.map_some, str_at hu]

theorem plainPair_ok {sep : Char} (hs : sep ≠ NUL) {p : Param} (h1 : p.gname.Ok) (h2 : ∀ v ∈ p.gvalue, v.Ok) : Str.Ok (plainPair sep p) := by
  obtain ⟨n, v⟩ := p
  cases v with
  | none => exact ok_cons.2 ⟨hs, by simpa using h1⟩
  | some v => exact ok_cons.2 ⟨hs, ok_append h1 (ok_cons.2 ⟨by decide, h2 v rfl⟩)⟩

theorem ok_flatMap {α : Type} {f : α → Str} {l : List α} (h : ∀ x ∈ l, (f x).Ok) : Str.Ok (l.flatMap f) := by
  intro k
  obtain ⟨x, hx, hk⟩ := List.mem_flatMap.1 k
  exact h x hx hk

theorem plainUri_ok {u : Uri} (hu : WfUri u) {sc host : Str} (s1 : u.scheme = some sc) (s2 : u.host = some host) :
    Str.Ok (plainUri sc u.username u.password host u.port u.url_params u.url_headers) := by
  obtain ⟨⟨sc', e1, _, e3⟩, g2, g3, ⟨host', e4, e5, _⟩, g5, g6, g7, _⟩ := hu
  rw [s1] at e1; cases e1
  rw [s2] at e4; cases e4
  have g7' : ∀ p ∈ u.url_headers, p.gname.Ok ∧ ∀ v ∈ p.gvalue, v.Ok := by
    intro p hp
    obtain ⟨k1, _, v, k2, k3, _⟩ := g7 p hp
    refine ⟨k1.1, fun w hw => ?_⟩
    rw [k2] at hw; cases hw; exact k3.1
  refine ok_append (letter_ne e3 (by decide)) (ok_cons.2 ⟨by decide, ok_append ?_ (ok_append (hostText_ok e5) (ok_append ?_ (ok_append ?_ ?_)))⟩)
  · cases hx : u.username with
    | none => simp [plainUser, Str.Ok]
    | some x =>
      refine ok_append (g2 x hx).1.1 (ok_append ?_ (by decide))
      cases hy : u.password with
      | none => simp [Str.Ok]
      | some y => exact ok_cons.2 ⟨by decide, (g3 y hy).1.1⟩
  · cases hx : u.port with
    | none => simp [Str.Ok]
    | some x => exact ok_cons.2 ⟨by decide, (g5 x hx).1⟩
  · exact ok_flatMap fun p hp => plainPair_ok (by decide) (g6 p hp).1.1 fun v hv => ((g6 p hp).2.2.2.2 v hv).1.1
  · cases hx : u.url_headers with
    | nil => simp [plainHeaders, Str.Ok]
    | cons p ps =>
      rw [hx] at g7'
      exact ok_append (plainPair_ok (by decide) (g7' p (by simp)).1 (g7' p (by simp)).2)
        (ok_flatMap fun q hq => plainPair_ok (by decide) (g7' q (by simp [hq])).1 (g7' q (by simp [hq])).2)

/-! ## The properties -/

/-- **C111**: the canonical text has the bytes of the components as they are, with the separators between them. -/
theorem c111_text {u : Uri} (hu : WfUri u) {sc host : Str} (s1 : u.scheme = some sc) (s2 : u.host = some host)
    (hh : '%' ∉ host) (hp : ∀ p ∈ u.port, '%' ∉ p) {fresh : Nat → Buf} (hf : ∀ n, (fresh n).length = n)
    {sscanf : Str → Option Nat} (hsc : SscanfOk sscanf) :
    osip_uri_to_str_canonical fresh sscanf (some u) =
      some (OSIP_SUCCESS, some (plainUri sc u.username u.password host u.port u.url_params u.url_headers)) := by
  obtain ⟨e1, e2, _⟩ := uri_text_round_trip hu s1 s2 hf hsc
  have h := unescaped_uriText hsc hu s1 s2 hh hp
  have hok : Str.Ok (unescaped sscanf (uriText sc host u)) := by
    rw [h]; exact plainUri_ok hu s1 s2
  simp only [osip_uri_to_str_canonical, e1, Option.bind_eq_bind, Option.bind_some, show OSIP_SUCCESS = 0 from rfl, if_true,
    unesc_eq sscanf e2 hok, h]
  rfl

theorem simple_text {u : Uri} (hu : WfUri u) (hs : SimpleUri u) (sc host : Str) :
    uriText sc host u = plainUri sc u.username u.password host u.port u.url_params u.url_headers := by
  obtain ⟨a1, a2, a3, a4⟩ := hs
  have hU : userText u.username u.password = plainUser u.username u.password := by
    cases hx : u.username with
    | none => rfl
    | some x =>
      have h1 := enc_simple (a1 x hx)
      cases hy : u.password with
      | none => simp only [userText, plainUser]; rw [show enc userinfo_def x = x from h1]
      | some y =>
        have h2 := enc_simple (a2 y hy)
        simp only [userText, plainUser]; rw [show enc userinfo_def x = x from h1, show enc password_def y = y from h2]
  have hP : ∀ ps : List Param, (∀ p ∈ ps, p ∈ u.url_params) → (ps.map encParam).flatMap paramToStr = ps.flatMap (plainPair ';') := by
    intro ps h
    induction ps with
    | nil => rfl
    | cons p ps ih =>
      have h1 := a3 p (h p (by simp))
      have h2 : encParam p = p := by
        obtain ⟨n, v⟩ := p
        have k1 : enc uri_param_def n = n := enc_simple h1.1
        cases v with
        | none => simp [encParam, k1]
        | some v =>
          have k2 : enc uri_param_def v = v := enc_simple (h1.2 v rfl)
          simp [encParam, k1, k2]
      simp only [List.map_cons, List.flatMap_cons, h2, ih fun q hq => h q (by simp [hq])]
      congr 1
      obtain ⟨n, v⟩ := p
      cases v <;> simp [paramToStr, plainPair]
  have hT : ∀ p ∈ u.url_headers, ∀ sep, sep :: headerText p = plainPair sep p := by
    intro p hp sep
    have h1 := a4 p hp
    obtain ⟨_, _, v, k2, _⟩ := hu.url_headers p hp
    have k3 : enc header_param_def p.gname = p.gname := enc_simple h1.1
    have k4 : enc header_param_def v = v := enc_simple (h1.2 v k2)
    simp [headerText, plainPair, k2, k3, k4]
  have hH : headersText u.url_headers = plainHeaders u.url_headers := by
    cases hx : u.url_headers with
    | nil => rfl
    | cons p ps =>
      rw [hx] at hT
      simp only [headersText, plainHeaders]
      rw [← List.cons_append, hT p (by simp)]
      congr 1
      have hT' : ∀ q ∈ ps, ∀ sep, sep :: headerText q = plainPair sep q := fun q hq => hT q (by simp [hq])
      clear hT hx
      induction ps with
      | nil => rfl
      | cons q ps ih =>
        simp only [List.flatMap_cons]
        rw [hT' q (by simp), ih fun r hr => hT' r (by simp [hr])]
  unfold uriText plainUri
  rw [hU, hP _ (fun _ h => h), hH]
  rfl

/-- **C111** as far as it holds: two well-formed URIs which need no escape and have the same canonical text are
the same. -/
theorem c111_same_partial {u v : Uri} (hu : WfUri u) (hv : WfUri v) (su : SimpleUri u) (sv : SimpleUri v)
    (hu2 : ∀ h ∈ u.host, '%' ∉ h) (hu3 : ∀ p ∈ u.port, '%' ∉ p) (hv2 : ∀ h ∈ v.host, '%' ∉ h) (hv3 : ∀ p ∈ v.port, '%' ∉ p)
    {fresh : Nat → Buf} (hf : ∀ n, (fresh n).length = n) {sscanf : Str → Option Nat} (hsc : SscanfOk sscanf)
    (h : osip_uri_to_str_canonical fresh sscanf (some u) = osip_uri_to_str_canonical fresh sscanf (some v)) : u = v := by
  obtain ⟨sc, s1, _⟩ := hu.scheme
  obtain ⟨host, h1, _⟩ := hu.host
  obtain ⟨sc', s1', _⟩ := hv.scheme
  obtain ⟨host', h1', _⟩ := hv.host
  rw [c111_text hu s1 h1 (hu2 _ h1) hu3 hf hsc, c111_text hv s1' h1' (hv2 _ h1') hv3 hf hsc,
    ← simple_text hu su, ← simple_text hv sv] at h
  injection h with h; injection h with _ h; injection h with h
  have e := (uri_text_round_trip hu s1 h1 hf hsc).2.2 []
  have e' := (uri_text_round_trip hv s1' h1' hf hsc).2.2 []
  rw [h, e'] at e
  injection e with e; injection e with _ e
  exact e.symm

/-- A URI for the witnesses. -/
def canonUri (user : Option Str) (ps : List Param) : Uri :=
  { scheme := some "sip".toList, username := user, host := some "h".toList, url_params := ps }

/-- **C111** fails in general: (1) `sip:h;p=x%3By` and `sip:h;p=x;y` are different but have the same canonical
text; (2) an escaped line break in the user part goes into the text as it is; (3) the text of `sip:a%40b@h`, read
again, is not that URI. -/
theorem c111_violated :
    (osip_uri_parse sscanf2 (Str.buf "sip:h;p=x%3By".toList) = some (OSIP_SUCCESS, canonUri none [⟨"p".toList, some "x;y".toList⟩]) ∧
      osip_uri_parse sscanf2 (Str.buf "sip:h;p=x;y".toList) = some (OSIP_SUCCESS, canonUri none [⟨"p".toList, some "x".toList⟩, ⟨"y".toList, none⟩]) ∧
      osip_uri_to_str_canonical (fun n => List.replicate n '#') sscanf2 (some (canonUri none [⟨"p".toList, some "x;y".toList⟩])) =
        some (OSIP_SUCCESS, some "sip:h;p=x;y".toList) ∧
      osip_uri_to_str_canonical (fun n => List.replicate n '#') sscanf2 (some (canonUri none [⟨"p".toList, some "x".toList⟩, ⟨"y".toList, none⟩])) =
        some (OSIP_SUCCESS, some "sip:h;p=x;y".toList)) ∧
    (osip_uri_parse sscanf2 (Str.buf "sip:a%0D%0Ab@h".toList) = some (OSIP_SUCCESS, canonUri (some "a\r\nb".toList) []) ∧
      osip_uri_to_str_canonical (fun n => List.replicate n '#') sscanf2 (some (canonUri (some "a\r\nb".toList) [])) =
        some (OSIP_SUCCESS, some "sip:a\r\nb@h".toList)) ∧
    (osip_uri_parse sscanf2 (Str.buf "sip:a%40b@h".toList) = some (OSIP_SUCCESS, canonUri (some "a@b".toList) []) ∧
      osip_uri_to_str_canonical (fun n => List.replicate n '#') sscanf2 (some (canonUri (some "a@b".toList) [])) =
        some (OSIP_SUCCESS, some "sip:a@b@h".toList) ∧
      osip_uri_parse sscanf2 (Str.buf "sip:a@b@h".toList) ≠ some (OSIP_SUCCESS, canonUri (some "a@b".toList) [])) := by
  decide +kernel

/-! ## Examples -/

example : osip_uri_to_str_canonical (fun n => List.replicate n '#') sscanf2 (some (uriWith (some "p w".toList) [⟨"transport".toList, some "t;p".toList⟩])) =
    some (OSIP_SUCCESS, some "sip:bob:p w@b.org;transport=t;p".toList) := by decide +kernel

example : plainUri "sip".toList (some "bob".toList) (some "p w".toList) "::1".toList (some "5060".toList) [⟨"lr".toList, none⟩]
      [⟨"a".toList, some "b&".toList⟩, ⟨"c".toList, some "d".toList⟩] =
    "sip:bob:p w@[::1]:5060;lr?a=b&&c=d".toList := by decide +kernel

example : SimpleUri (uriWith (some "pw".toList) [⟨"transport".toList, some "tcp".toList⟩]) :=
  ⟨by simp [uriWith, AllowedIn], by simp [uriWith, AllowedIn], by simp [uriWith, AllowedIn], by simp [uriWith]⟩

end Osip
