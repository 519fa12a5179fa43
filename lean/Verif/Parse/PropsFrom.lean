import Verif.Parse.From
import Verif.Parse.PropsUriBounds

/-!
# C53, C73: From, To, Contact, Route, Record-Route
-/

set_option autoImplicit false

namespace Osip

/-! ## Specification -/

/-- A display name: a quoted string, or words made of letters, digits and ``-.!%*_+`'~``. -/
inductive WfName : Str → Prop
  | quoted {body : Str} : QText body → body.Ok → WfName ('"' :: (body ++ ['"']))
  | words {n : Str} : n ≠ [] → Trimmed n →
      (∀ c ∈ n, c = ' ' ∨ ('a' ≤ c ∧ c ≤ 'z') ∨ ('A' ≤ c ∧ c ≤ 'Z') ∨ ('0' ≤ c ∧ c ≤ '9') ∨ c ∈ "-.!%*_+`'~".toList) →
      WfName n

/-- A header which survives. -/
structure WfFrom (f : From) (u : Uri) : Prop where
  url : f.url = some u
  uri : WfUri u
  host : ∀ h ∈ u.host, '>' ∉ h
  port : ∀ p ∈ u.port, '>' ∉ p
  name : ∀ n ∈ f.displayname, WfName n
  params : ∀ p ∈ f.gen_params, WfParam p

/-! ## Writing -/

theorem putn_fits {len : Nat} {buf t : Str} (h : buf.length + t.length < len) : putn len buf t = some (buf ++ t) := by
  rw [putn, if_pos (by omega), List.take_of_length_le (by omega)]

theorem fromParamsStr_run (ps : List Param) (len : Nat) (buf : Str) (h : buf.length < len) :
    fromParamsStr ps len buf = some (buf ++ ps.flatMap paramToStr) := by
  induction ps generalizing len buf with
  | nil => simp [fromParamsStr]
  | cons p ps ih =>
    obtain ⟨name, value⟩ := p
    cases value with
    | none =>
      simp only [fromParamsStr, Option.bind_eq_bind]
      rw [putn_fits (by simp; omega)]
      simp only [Option.bind_some]
      rw [ih _ _ (by simp; omega)]
      simp [paramToStr]
    | some v =>
      simp only [fromParamsStr, Option.bind_eq_bind]
      rw [putn_fits (by simp; omega)]
      simp only [Option.bind_some]
      rw [ih _ _ (by simp; omega)]
      simp [paramToStr]

/-- The display name as it is written. -/
def nameText : Option Str → Str
  | none => []
  | some d => d ++ [' ']

theorem from_to_str_run {fresh : Nat → Buf} {f : From} {u : Uri} {t : Str} (hu : f.url = some u)
    (ht : osip_uri_to_str fresh (some u) = some (OSIP_SUCCESS, some t)) :
    osip_from_to_str fresh (some f) =
      some (OSIP_SUCCESS, some (nameText f.displayname ++ '<' :: (t ++ '>' :: f.gen_params.flatMap paramToStr))) := by
  obtain ⟨name, url, ps⟩ := f
  simp only at hu
  subst hu
  simp only [osip_from_to_str, ht, Option.bind_eq_bind, Option.bind_some, OSIP_SUCCESS]
  rw [if_neg (by decide)]
  cases name with
  | none =>
    simp only
    rw [put_fits (by simp)]
    simp only [Option.bind_some]
    rw [fromParamsStr_run _ _ _ (by simp)]
    simp [nameText]
  | some d =>
    simp only
    rw [put_fits (by simp; omega)]
    simp only [Option.bind_some]
    rw [fromParamsStr_run _ _ _ (by simp; omega)]
    simp [nameText]

/-! ## Reading -/

/-- What is written for the parameters is read as the same parameters. -/
def ReadBack (ps : List Param) : Prop :=
  Str.Ok (ps.flatMap paramToStr) ∧ ∀ r, fromGen [] (if ps.flatMap paramToStr = [] then none else some (ps.flatMap paramToStr ++ NUL :: r)) =
    some (OSIP_SUCCESS, ps)

theorem wf_readBack {ps : List Param} (hps : ∀ p ∈ ps, WfParam p) : ReadBack ps := by
  refine ⟨params_ok fun p hp => (hps p hp).1, fun r => ?_⟩
  by_cases h0 : ps = []
  · subst h0; rfl
  · have : ps.flatMap paramToStr ≠ [] := fun h => h0 ((params_nil_iff ps).1 h)
    rw [if_neg this, fromGen, c71_params_round_trip ps h0 hps]
    rfl

theorem fromUrl_wf {sscanf : Str → Option Nat} {f : From} {u : Uri} {t : Str} (ht : t.Ok) (hgt : '>' ∉ t)
    (hlast : ∀ a, t ≠ a ++ [';']) (hlen : 6 ≤ t.length)
    (hp : ∀ r, osip_uri_parse sscanf (t ++ NUL :: r) = some (OSIP_SUCCESS, u)) (hf : f.gen_params = []) {ps : List Param}
    (hps : ReadBack ps) (r : List Char) :
    fromUrl sscanf f ('<' :: (t ++ '>' :: (ps.flatMap paramToStr ++ NUL :: r))) =
      some (OSIP_SUCCESS, { f with url := some u, gen_params := ps }) := by
  obtain ⟨name, url, ps0⟩ := f
  simp only at hf
  subst hf
  obtain ⟨hG, hgen⟩ := hps
  have hgen := hgen r
  have f1 := cstrchr_found (c := '>') ht hgt (ps.flatMap paramToStr ++ NUL :: r)
  have d1 : pdiff ('>' :: (ps.flatMap paramToStr ++ NUL :: r)) ('<' :: (t ++ '>' :: (ps.flatMap paramToStr ++ NUL :: r))) - 1 =
      t.length := by simp [pdiff]; omega
  have d2 : pdiff ('>' :: (ps.flatMap paramToStr ++ NUL :: r)) (t ++ '>' :: (ps.flatMap paramToStr ++ NUL :: r)) =
      t.length := pdiff_app _ _
  obtain ⟨t', x, rfl⟩ : ∃ t' x, t = t' ++ [x] := by
    rcases List.eq_nil_or_concat t with h | ⟨t', x, e⟩
    · rw [h] at hlen; simp at hlen
    · exact ⟨t', x, by simpa using e⟩
  have hx : x ≠ ';' := fun h => hlast t' (by rw [h])
  have hx0 : x ≠ NUL := (ok_cons.1 (ok_append_iff.1 ht).2).1
  have dr : ('<' :: (t' ++ [x] ++ '>' :: (ps.flatMap paramToStr ++ NUL :: r))).drop (t' ++ [x]).length =
      [x, '>'] ++ (ps.flatMap paramToStr ++ NUL :: r) := by
    have : '<' :: (t' ++ [x] ++ '>' :: (ps.flatMap paramToStr ++ NUL :: r)) =
      ('<' :: t') ++ ([x, '>'] ++ (ps.flatMap paramToStr ++ NUL :: r)) := by simp
    rw [this]; exact drop_app _ _ (by simp)
  have g := cstrchr_follows (a := [x, '>']) (rest := ps.flatMap paramToStr)
    (ok_cons.2 ⟨hx0, by decide⟩) (by simp [Ne.symm hx]) hG (params_follow ps) r
  have e := strncpy_at ht (b := '>' :: ps.flatMap paramToStr) (ok_cons.2 ⟨by decide, hG⟩) r (n := (t' ++ [x]).length) rfl
  simp only [List.cons_append] at e
  simp only [fromUrl, deref, List.head?_cons, Option.bind_eq_bind, Option.bind_some, if_true, List.drop_one, List.tail_cons, f1, d1,
    Int.toNat_natCast, dr, g, d2, fromRest, hgen]
  rw [if_neg (by decide), if_neg (by omega), e]
  simp only [Option.bind_some]
  rw [Str.buf, hp]
  rfl

theorem isNameChar_iff {c : Char} : isNameChar c = true ↔ c = ' ' ∨ ('a' ≤ c ∧ c ≤ 'z') ∨ ('A' ≤ c ∧ c ≤ 'Z') ∨
    ('0' ≤ c ∧ c ≤ '9') ∨ c ∈ "-.!%*_+`'~".toList := by
  simp only [isNameChar, isAlpha, Bool.or_eq_true, Bool.and_eq_true, beq_iff_eq, decide_eq_true_eq, List.contains_iff_mem]
  constructor
  · rintro (((h | h | h) | h) | h) <;> simp only [h, true_or, or_true, and_self]
  · rintro (h | h | h | h | h) <;> simp only [h, true_or, or_true, and_self]

theorem skipName_run {n : Str} (h : ∀ c ∈ n, isNameChar c = true) {d : Char} (hd : isNameChar d = false) (t : List Char) :
    skipName (n ++ d :: t) = some (d :: t) := by
  induction n with
  | nil => simp [skipName, hd]
  | cons c n ih =>
    simp only [List.cons_append, skipName, h c (by simp), if_true]
    exact ih fun x hx => h x (by simp [hx])

theorem trimmed_ends {n : Str} (h : Trimmed n) (h0 : n ≠ []) :
    ∃ a z m m', n = a :: m ∧ n = m' ++ [z] ∧ isBlank a = false ∧ isBlank z = false := by
  rcases trim_cases n with ⟨_, h1⟩ | ⟨w1, m, w2, a, z, m1, m2, e, b1, b2, ha, hz, e1, e2⟩
  · rw [h] at h1; exact absurd h1 h0
  · have := trim_mid (m := m) b1 b2 ha hz e1 e2
    rw [← e, h] at this
    subst this
    exact ⟨a, z, m1, m2, e1, e2, ha, hz⟩

theorem from_parse_text {sscanf : Str → Option Nat} {f : From} {u : Uri} {t : Str} (hu : f.url = some u) (ht : t.Ok) (hgt : '>' ∉ t)
    (hlast : ∀ a, t ≠ a ++ [';']) (hlen : 6 ≤ t.length)
    (hp : ∀ r, osip_uri_parse sscanf (t ++ NUL :: r) = some (OSIP_SUCCESS, u)) (hn : ∀ n ∈ f.displayname, WfName n)
    (hps : ReadBack f.gen_params) (r : List Char) :
    osip_from_parse sscanf (nameText f.displayname ++ '<' :: (t ++ '>' :: (f.gen_params.flatMap paramToStr ++ NUL :: r))) =
      some (OSIP_SUCCESS, f) := by
  obtain ⟨name, url, ps⟩ := f
  simp only at hu hn hps ⊢
  subst hu
  obtain ⟨x, t', rfl⟩ : ∃ x t', t = x :: t' := by
    cases t with
    | nil => simp at hlen
    | cons x t' => exact ⟨x, t', rfl⟩
  have hx0 := (ok_cons.1 ht).1
  have hG := hps.1
  cases name with
  | none =>
    have k := fromUrl_wf (f := {}) ht hgt hlast hlen hp rfl hps r
    simp only [nameText, List.nil_append]
    unfold osip_from_parse
    simp only [skipChars, List.mem_singleton, show ¬ '<' = ' ' by decide, if_false, Option.bind_eq_bind, Option.bind_some, deref,
      List.head?_cons, show ¬ '<' = NUL by decide, show ¬ '<' = '"' by decide, skipName, show isNameChar '<' = false by decide,
      Bool.false_eq_true, if_true, List.cons_append, List.drop_one, List.tail_cons, hx0, pdiff, Int.sub_self, gt_iff_lt, Int.lt_irrefl]
    simp only [List.cons_append] at k
    rw [k]
  | some n =>
    have k := fromUrl_wf (f := { displayname := some n }) ht hgt hlast hlen hp rfl hps r
    simp only [List.cons_append] at k
    cases hn n rfl with
    | @quoted body hq hb =>
      have hrest : Str.Ok (' ' :: '<' :: (x :: t' ++ '>' :: ps.flatMap paramToStr)) :=
        ok_cons.2 ⟨by decide, ok_cons.2 ⟨by decide, ok_append ht (ok_cons.2 ⟨by decide, hG⟩)⟩⟩
      have q := quote_find_qtext hq hb hrest r
      have e := strncpy_at (a := '"' :: (body ++ ['"'])) (ok_cons.2 ⟨by decide, ok_append hb (by decide)⟩) hrest r
        (n := (body.length : Int) + 1 + 1) (by simp)
      have d : pdiff ('"' :: ' ' :: '<' :: x :: (t' ++ '>' :: (ps.flatMap paramToStr ++ NUL :: r)))
        ('"' :: (body ++ '"' :: ' ' :: '<' :: x :: (t' ++ '>' :: (ps.flatMap paramToStr ++ NUL :: r)))) = body.length + 1 := by
        simp [pdiff]; omega
      simp only [List.cons_append, List.append_assoc, List.nil_append] at q e
      simp only [nameText, List.cons_append, List.append_assoc, List.nil_append]
      unfold osip_from_parse
      simp only [skipChars, List.mem_singleton, show ¬ '"' = ' ' by decide, if_false, Option.bind_eq_bind, Option.bind_some, deref,
        List.head?_cons, show ¬ '"' = NUL by decide, if_true, fromQuoted, List.drop_one, List.tail_cons, q, d, e,
        show ¬ '<' = ' ' by decide, ne_eq, not_true_eq_false, hx0]
      rw [k]
    | words h0 htr hch =>
      obtain ⟨a, z, m, m', e1, e2, ha, hz⟩ := trimmed_ends htr h0
      have hch' : ∀ c ∈ n, isNameChar c = true := fun c hc => isNameChar_iff.2 (hch c hc)
      have hno : n.Ok := fun hm => absurd (hch' _ hm) (by decide)
      have hq : a ≠ '"' := by
        intro h; subst h; exact absurd (hch' '"' (by simp [e1])) (by decide)
      have hsp : a ≠ ' ' := by intro h; subst h; simp [isBlank] at ha
      have ha0 : a ≠ NUL := by intro h; subst h; exact hno (by simp [e1])
      have s1 : skipChars [' '] (n ++ ' ' :: '<' :: x :: (t' ++ '>' :: (ps.flatMap paramToStr ++ NUL :: r))) =
          some (n ++ ' ' :: '<' :: x :: (t' ++ '>' :: (ps.flatMap paramToStr ++ NUL :: r))) := by
        rw [e1]; simp [skipChars, hsp]
      have s2 : deref (n ++ ' ' :: '<' :: x :: (t' ++ '>' :: (ps.flatMap paramToStr ++ NUL :: r))) = some a := by
        rw [e1]; rfl
      have s3 := skipName_run (n := n ++ [' ']) (by
        intro c hc
        rcases List.mem_append.1 hc with h | h
        · exact hch' c h
        · simp only [List.mem_singleton] at h; subst h; rfl) (show isNameChar '<' = false by decide)
          (x :: (t' ++ '>' :: (ps.flatMap paramToStr ++ NUL :: r)))
      have d : pdiff ('<' :: x :: (t' ++ '>' :: (ps.flatMap paramToStr ++ NUL :: r)))
        (n ++ ' ' :: '<' :: x :: (t' ++ '>' :: (ps.flatMap paramToStr ++ NUL :: r))) = n.length + 1 := by
        simp [pdiff]; omega
      have hrest : Str.Ok ('<' :: (x :: t' ++ '>' :: ps.flatMap paramToStr)) :=
        ok_cons.2 ⟨by decide, ok_append ht (ok_cons.2 ⟨by decide, hG⟩)⟩
      have e := clrncpy_at (a := n ++ [' ']) (ok_append hno (by decide)) hrest r (n := (n.length : Int) + 1) (by simp)
      have tr : trim (n ++ [' ']) = n := by
        have := trim_mid (w₁ := []) (m := n) (w₂ := [' ']) (by simp) (by simp [isBlank]) ha hz e1 e2
        simpa using this
      simp only [List.cons_append, List.append_assoc, List.nil_append] at s3 e
      simp only [nameText, List.cons_append, List.append_assoc, List.nil_append]
      unfold osip_from_parse
      simp only [s1, s2, Option.bind_eq_bind, Option.bind_some, ha0, hq, if_false, s3, d]
      simp only [deref, List.head?_cons, Option.bind_some, show ¬ '<' = NUL by decide, if_false, if_true, List.drop_one, List.tail_cons,
        hx0]
      rw [if_pos (by omega), e, tr]
      simp only [Option.bind_some]
      rw [k]

/-! ## The text of the URI -/

theorem uriText_no_gt {u : Uri} (hu : WfUri u) {sc host : Str} (h1 : u.scheme = some sc) (h2 : u.host = some host)
    (h3 : '>' ∉ host) (h4 : ∀ p ∈ u.port, '>' ∉ p) : '>' ∉ uriText sc host u := by
  obtain ⟨⟨sc', s1, _, s3⟩, g2, g3, _, _, g6, g7, _⟩ := hu
  rw [h1] at s1; cases s1
  have n1 : '>' ∉ sc := letter_ne s3 (by decide)
  have n2 : '>' ∉ userText u.username u.password := by
    cases hx : u.username with
    | none => simp [userText]
    | some x =>
      have := enc_notin (dfn := userinfo_def) (c := '>') (g2 x hx).1 (by decide) (by decide) (by decide)
      cases hy : u.password with
      | none => simp [userText, this]
      | some y =>
        have := enc_notin (dfn := password_def) (c := '>') (g3 y hy).1 (by decide) (by decide) (by decide)
        simp [userText, *]
  have n3 : '>' ∉ hostText host := by
    unfold hostText; split
    · simp [h3]
    · exact h3
  have n4 : '>' ∉ portText u.port := by
    cases hp : u.port with
    | none => simp [portText]
    | some p => simp [portText, h4 p hp]
  have n5 := params_no g6 (c := '>') (by decide) (by decide) (by decide)
  have n6 := headers_no g7 (c := '>') (by decide) (by decide) (by decide)
  simp only [uriText, List.mem_append, List.mem_cons, not_or]
  exact ⟨n1, by decide, n2, n3, n4, n5, n6⟩

theorem last_ne {a b : Str} {c : Char} (hb : b ≠ []) (h : c ∉ b) (x : Str) : a ++ b ≠ x ++ [c] := by
  intro e
  have h1 := congrArg List.getLast? e
  rw [List.getLast?_append] at h1
  obtain ⟨b', z, rfl⟩ : ∃ b' z, b = b' ++ [z] := by
    rcases List.eq_nil_or_concat b with h | ⟨b', z, e⟩
    · exact absurd h hb
    · exact ⟨b', z, by simpa using e⟩
  simp at h1
  exact h (by simp [h1])

theorem params_last {ps : List Param} (h : ∀ p ∈ ps, UriParam p) (hne : ps ≠ []) (a x : Str) :
    a ++ (ps.map encParam).flatMap paramToStr ≠ x ++ [';'] := by
  induction ps generalizing a with
  | nil => exact absurd rfl hne
  | cons p ps ih =>
    by_cases h0 : ps = []
    · subst h0
      obtain ⟨g1, g2, _, _, g5⟩ := h p (by simp)
      obtain ⟨name, value⟩ := p
      cases value with
      | none =>
        have := last_ne (a := a ++ [';']) (enc_ne (dfn := uri_param_def) g2)
          (enc_notin (c := ';') g1 (by decide) (by decide) (by decide)) x
        simpa [encParam, paramToStr] using this
      | some v =>
        obtain ⟨v1, v2, _⟩ := g5 v rfl
        have := last_ne (a := a ++ ';' :: (enc uri_param_def name ++ ['='])) (enc_ne (dfn := uri_param_def) v2)
          (enc_notin (c := ';') v1 (by decide) (by decide) (by decide)) x
        simpa [encParam, paramToStr] using this
    · have := ih (fun q hq => h q (by simp [hq])) h0 (a ++ paramToStr (encParam p))
      simpa using this

theorem uriText_last {u : Uri} (hu : WfUri u) {host : Str} (sc : Str) (h2 : u.host = some host) (x : Str) :
    uriText sc host u ≠ x ++ [';'] := by
  obtain ⟨_, _, _, ⟨h', e, g4⟩, g5, g6, g7, _⟩ := hu
  rw [h2] at e; cases e
  by_cases hh : u.url_headers = []
  · by_cases hp : u.url_params = []
    · have b1 : hostText host ≠ [] := by
        unfold hostText; split
        · simp
        · exact g4.2.1
      have b2 : ';' ∉ hostText host ++ portText u.port := by
        have n1 : ';' ∉ hostText host := by
          have := g4.2.2.2.1 ';' (by decide)
          unfold hostText; split
          · simp [this]
          · exact this
        cases hp : u.port with
        | none => simpa [portText] using n1
        | some p =>
          have := (g5 p hp).2.2.2.2.1 ';' (by decide)
          simp [portText, n1, this]
      have := last_ne (a := sc ++ ':' :: userText u.username u.password) (b := hostText host ++ portText u.port) (c := ';')
        (by simp [b1]) b2 x
      simpa [uriText, hh, hp, headersText] using this
    · have := params_last g6 hp (sc ++ ':' :: (userText u.username u.password ++ (hostText host ++ portText u.port))) x
      simpa [uriText, hh, headersText] using this
  · have b1 : headersText u.url_headers ≠ [] := by
      cases he : u.url_headers with
      | nil => exact absurd he hh
      | cons y ys => simp [headersText]
    have := last_ne (a := sc ++ ':' :: (userText u.username u.password ++ (hostText host ++ (portText u.port ++
      (u.url_params.map encParam).flatMap paramToStr)))) (c := ';') b1
      (headers_no g7 (c := ';') (by decide) (by decide) (by decide)) x
    simpa [uriText] using this

/-! ## Properties -/

/-- **C53** for well-formed components. The header is written and read back: display name, URI and parameters
in order. Missing: URIs whose text has less than six characters - they are rejected, see `c53_violated` -
and components outside `WfFrom`. -/
theorem c53_from_round_trip_partial {f : From} {u : Uri} (hw : WfFrom f u) {fresh : Nat → Buf}
    (hf : ∀ n, (fresh n).length = n) {sscanf : Str → Option Nat} (hsc : SscanfOk sscanf) :
    ∃ t s, osip_uri_to_str fresh (some u) = some (OSIP_SUCCESS, some t) ∧
      osip_from_to_str fresh (some f) = some (OSIP_SUCCESS, some s) ∧
      (6 ≤ t.length → ∀ r, osip_from_parse sscanf (s ++ NUL :: r) = some (OSIP_SUCCESS, f)) := by
  obtain ⟨h1, h2, h3, h4, h5, h6⟩ := hw
  obtain ⟨sc, s1, _⟩ := h2.scheme
  obtain ⟨host, g1, _⟩ := h2.host
  obtain ⟨e1, e2, e3⟩ := uri_text_round_trip h2 s1 g1 hf hsc
  refine ⟨_, _, e1, from_to_str_run h1 e1, fun hl r => ?_⟩
  have := from_parse_text h1 e2 (uriText_no_gt h2 s1 g1 (h3 host g1) h4) (fun a => uriText_last h2 sc g1 a) hl e3 h5 (wf_readBack h6) r
  simpa using this

/-- **C53** for Contact headers: the same unless the display name starts with a star. -/
theorem c53_contact_round_trip_partial {f : From} {u : Uri} (hw : WfFrom f u) (hstar : ∀ n, f.displayname ≠ some ('*' :: n))
    {fresh : Nat → Buf} (hf : ∀ n, (fresh n).length = n) {sscanf : Str → Option Nat} (hsc : SscanfOk sscanf) :
    ∃ t s, osip_uri_to_str fresh (some u) = some (OSIP_SUCCESS, some t) ∧
      osip_contact_to_str fresh (some f) = some (OSIP_SUCCESS, some s) ∧
      (6 ≤ t.length → ∀ r, osip_contact_parse sscanf (s ++ NUL :: r) = some (OSIP_SUCCESS, f)) := by
  have hw' := hw
  obtain ⟨h1, h2, h3, h4, h5, h6⟩ := hw
  obtain ⟨sc, s1, _⟩ := h2.scheme
  obtain ⟨host, g1, _⟩ := h2.host
  obtain ⟨e1, e2, e3⟩ := uri_text_round_trip h2 s1 g1 hf hsc
  have k := from_to_str_run h1 e1
  have k2 : osip_contact_to_str fresh (some f) = osip_from_to_str fresh (some f) := by
    unfold osip_contact_to_str
    split
    · next h => exact absurd h (by simp)
    · next c h =>
      cases h
      split
      · next n h => exact absurd h (hstar n)
      · rfl
  refine ⟨_, _, e1, k2.trans k, fun hl r => ?_⟩
  have := from_parse_text h1 e2 (uriText_no_gt h2 s1 g1 (h3 host g1) h4) (fun a => uriText_last h2 sc g1 a) hl e3 h5 (wf_readBack h6) r
  have hd : ∃ c, deref (nameText f.displayname ++ '<' :: (uriText sc host u ++ '>' :: f.gen_params.flatMap paramToStr) ++ NUL :: r) =
      some c ∧ c ≠ '*' := by
    cases hn : f.displayname with
    | none => exact ⟨'<', rfl, by decide⟩
    | some n =>
      cases n with
      | nil => exact ⟨' ', rfl, by decide⟩
      | cons c n => exact ⟨c, rfl, fun h => hstar n (by rw [hn, h])⟩
  obtain ⟨c, hd, hc⟩ := hd
  unfold osip_contact_parse
  rw [hd]
  simp only [Option.bind_eq_bind, Option.bind_some, hc, if_false]
  simpa using this

/-- A header for the witnesses. -/
def fromWith (name : Option Str) (host : Str) : From :=
  { displayname := name, url := some { scheme := some "sip".toList, host := some host } }

/-- **C53** for headers without angle brackets: a text with scheme is the URI up to the first semicolon, what follows are parameters
of the header. -/
theorem c53_addr_spec {sscanf : Str → Option Nat} {sc t : Str} (h0 : sc ≠ []) (hsc : ∀ c ∈ sc, ('a' ≤ c ∧ c ≤ 'z') ∨ ('A' ≤ c ∧ c ≤ 'Z'))
    (ht : t.Ok) (hs : ';' ∉ t) (hlen : 5 ≤ (sc ++ t).length) {ps : List Param} (hps : ∀ p ∈ ps, WfParam p) {i : Int} {u : Uri}
    (hu : osip_uri_parse sscanf (Str.buf (sc ++ ':' :: t)) = some (i, u)) (r : List Char) :
    osip_from_parse sscanf (sc ++ ':' :: (t ++ (ps.flatMap paramToStr ++ NUL :: r))) =
      some (i, { url := some u, gen_params := ps }) := by
  have hG := params_ok (ps := ps) fun p hp => (hps p hp).1
  have hname : ∀ c ∈ sc, isNameChar c = true := fun c hc =>
    isNameChar_iff.2 ((hsc c hc).elim (fun h => .inr (.inl h)) (fun h => .inr (.inr (.inl h))))
  have hso : sc.Ok := fun hm => absurd (hname _ hm) (by decide)
  have hss : ';' ∉ sc := fun hm => absurd (hname _ hm) (by decide)
  have hT : Str.Ok (sc ++ ':' :: t) := ok_append hso (ok_cons.2 ⟨by decide, ht⟩)
  have hTs : ';' ∉ sc ++ ':' :: t := by simp [hss, hs]
  have e0 : sc ++ ':' :: (t ++ (ps.flatMap paramToStr ++ NUL :: r)) = (sc ++ ':' :: t) ++ (ps.flatMap paramToStr ++ NUL :: r) := by simp
  have g := cstrchr_follows hT hTs hG (params_follow ps) r
  have s3 := skipName_run hname (show isNameChar ':' = false by decide) (t ++ (ps.flatMap paramToStr ++ NUL :: r))
  obtain ⟨a, sc', rfl⟩ : ∃ a sc', sc = a :: sc' := by
    cases sc with
    | nil => exact absurd rfl h0
    | cons a sc' => exact ⟨a, sc', rfl⟩
  have ha := hsc a (by simp)
  have ha1 : a ≠ ' ' := by rintro rfl; revert ha; decide
  have ha2 : a ≠ NUL := by rintro rfl; revert ha; decide
  have ha3 : a ≠ '"' := by rintro rfl; revert ha; decide
  have ha4 : a ≠ '<' := by rintro rfl; revert ha; decide
  have key : fromUrl sscanf {} (a :: sc' ++ ':' :: (t ++ (ps.flatMap paramToStr ++ NUL :: r))) =
      some (i, { url := some u, gen_params := ps }) := by
    have hd : deref (a :: sc' ++ ':' :: (t ++ (ps.flatMap paramToStr ++ NUL :: r))) = some a := rfl
    unfold fromUrl
    simp only [hd, Option.bind_eq_bind, Option.bind_some, ha4, if_false]
    rw [e0, g]
    simp only [List.length_append, List.length_cons] at hlen
    by_cases hp : ps = []
    · subst hp
      have hc := cstr_at hT r
      have e := strncpy_at hT (b := []) (by decide) r (n := (a :: sc' ++ ':' :: t).length) rfl
      have e' : strncpy ((a :: sc' ++ ':' :: t) ++ NUL :: r) ((a :: sc' ++ ':' :: t).length + 1) = some (a :: sc' ++ ':' :: t) := by
        rw [strncpy, hc]
        simp only [Option.bind_eq_bind, Option.bind_some]
        rw [if_pos (by omega), List.take_of_length_le (by omega)]
      simp only [List.flatMap_nil, List.nil_append, if_true, Option.bind_some, hc, fromRest, fromGen, Option.bind_eq_bind]
      rw [if_neg (by decide), if_neg (by simp; omega), e']
      simp only [Option.bind_some, hu]
      rfl
    · have hne : ps.flatMap paramToStr ≠ [] := fun h => hp ((params_nil_iff ps).1 h)
      rw [if_neg hne]
      have d : pdiff (ps.flatMap paramToStr ++ NUL :: r) (a :: sc' ++ ':' :: t ++ (ps.flatMap paramToStr ++ NUL :: r)) =
        (a :: sc' ++ ':' :: t).length := pdiff_app _ _
      have e := strncpy_at hT hG r (n := (a :: sc' ++ ':' :: t).length) rfl
      simp only [Option.bind_some, d, fromRest, fromGen, c71_params_round_trip ps hp hps, List.nil_append, Option.bind_eq_bind]
      rw [if_neg (by decide), if_neg (by simp; omega), e]
      simp only [Option.bind_some, hu]
      rfl
  unfold osip_from_parse
  have s1 : skipChars [' '] (a :: sc' ++ ':' :: (t ++ (ps.flatMap paramToStr ++ NUL :: r))) =
      some (a :: sc' ++ ':' :: (t ++ (ps.flatMap paramToStr ++ NUL :: r))) := by simp [skipChars, ha1]
  have s2 : deref (a :: sc' ++ ':' :: (t ++ (ps.flatMap paramToStr ++ NUL :: r))) = some a := rfl
  have s4 : deref (':' :: (t ++ (ps.flatMap paramToStr ++ NUL :: r))) = some ':' := rfl
  simp only [s1, s2, s3, s4, Option.bind_eq_bind, Option.bind_some, ha2, ha3, if_false, show ¬ ':' = NUL by decide, show ¬ ':' = '<' by decide]
  exact key

theorem putn_grows {len : Nat} {b t z : Str} (h : putn len b t = some z) : b.length ≤ z.length := by
  unfold putn at h
  split at h
  · cases h; simp
  · cases h

theorem put_eq {len : Nat} {b t z : Str} (h : put len b t = some z) : z = b ++ t := by
  unfold put at h
  split at h
  · cases h; rfl
  · cases h

/-- **C53** for the Contact header `*`: it is read as a name without URI, and only this name is written as `*`. -/
theorem c53_contact_star (sscanf : Str → Option Nat) (fresh : Nat → Buf) (r : List Char) :
    osip_contact_parse sscanf ('*' :: NUL :: r) = some (OSIP_SUCCESS, { displayname := some ['*'] }) ∧
    osip_contact_to_str fresh (some { displayname := some ['*'] }) = some (OSIP_SUCCESS, some ['*']) ∧
    ∀ f i, osip_contact_to_str fresh (some f) = some (i, some ['*']) → ∃ n, f.displayname = some ('*' :: n) := by
  refine ⟨?_, rfl, ?_⟩
  · have := cstr_at (s := ['*']) (by decide) r
    simp only [List.cons_append, List.nil_append] at this
    simp [osip_contact_parse, deref, this]
  · intro f i h
    unfold osip_contact_to_str at h
    simp only at h
    split at h
    · exact ⟨_, by assumption⟩
    · exfalso
      obtain ⟨name, url, ps⟩ := f
      cases url with
      | none => simp [osip_from_to_str] at h
      | some u =>
        simp only [osip_from_to_str, Option.bind_eq_bind, Option.bind_eq_some_iff, Prod.exists] at h
        obtain ⟨j, o, h1, h⟩ := h
        cases o with
        | none => simp at h
        | some t =>
          simp only at h
          split at h
          · simp at h
          · simp only [Option.bind_eq_some_iff] at h
            obtain ⟨b, hb, b2, hb2, h⟩ := h
            have hlen : b2.length = 1 := by simp at h; rw [h.2]; rfl
            have hb2' : b.length ≤ b2.length := by
              have key : ∀ (ps : List Param) (len : Nat) (x y : Str), fromParamsStr ps len x = some y → x.length ≤ y.length := by
                intro ps
                induction ps with
                | nil => intro len x y h; simp [fromParamsStr] at h; simp [h]
                | cons p ps ih =>
                  intro len x y h
                  simp only [fromParamsStr, Option.bind_eq_bind, Option.bind_eq_some_iff] at h
                  obtain ⟨z, hz, h⟩ := h
                  have := ih _ _ _ h
                  have := putn_grows hz
                  omega
              exact key _ _ _ _ hb2
            have : 2 ≤ b.length := by
              rw [put_eq hb]
              cases name <;> simp <;> omega
            omega

/-- **C53** fails: (1) the header with the URI sip:a is written, but the URI is taken for too short; (2) a Contact
header with a display name which starts with a star is written as a star; (3) blanks before a display name make
the parser cut off as many of its last characters. -/
theorem c53_violated :
    (osip_from_to_str (fun n => List.replicate n '#') (some (fromWith none "a".toList)) =
        some (OSIP_SUCCESS, some "<sip:a>".toList) ∧
      osip_from_parse sscanf2 (Str.buf "<sip:a>".toList) = some (OSIP_SYNTAXERROR, {})) ∧
    (osip_contact_to_str (fun n => List.replicate n '#') (some (fromWith (some "*bob".toList) "b.org".toList)) =
        some (OSIP_SUCCESS, some "*".toList) ∧
      osip_contact_parse sscanf2 (Str.buf "*".toList) = some (OSIP_SUCCESS, { displayname := some "*".toList })) ∧
    osip_from_parse sscanf2 (Str.buf "   bob<sip:b.org>".toList) = some (OSIP_SUCCESS, fromWith (some []) "b.org".toList) := by
  decide +kernel

/-- Is a From header written and read back? -/
def fromBack (f : From) : Option Bool := do
  let (i, s) ← osip_from_to_str (fun n => List.replicate n '#') (some f)
  let s ← s
  let (j, g) ← osip_from_parse sscanf2 (Str.buf s)
  return decide (i = OSIP_SUCCESS ∧ j = OSIP_SUCCESS ∧ g = f)

/-- **C53** fails for each kind of component which `WfFrom` leaves out: a closing angle bracket in host or port, a display name
which has other characters and is not one quoted string, or which is empty or has outer blanks, and a parameter with an empty
name or value or with a separator in it. -/
theorem c53_separators_violated :
    (∀ h ∈ ["a>b.org", ">b.org", "b.org>"], fromBack (fromWith none h.toList) = some false) ∧
    fromBack { url := some { scheme := some "sip".toList, host := some "b.org".toList, port := some "5>6".toList } } = some false ∧
    (∀ n ∈ ["a@b", "a;b", "a,b", "a/b", "a(b)", "a<b", "a>b", "a=b", "a:b", "a?b", "a\tb", "a\"b", "\"a", "\"a\"b", "\"a\\\"",
        "\"a\" \"b\"", "a \"b\"", " ab", "ab ", ""], fromBack (fromWith (some n.toList) "b.org".toList) = some false) ∧
    (∀ p ∈ [("", none), ("a;b", none), ("a=b", none), (" a", none), ("a", some ""), ("a", some "b;c"), ("a", some " b")],
      fromBack { fromWith none "b.org".toList with gen_params := [⟨p.1.toList, p.2.map String.toList⟩] } = some false) ∧
    (∀ n ∈ ["bob", "*bob", "a b", "\"\"", "\"a;b\"", "\"a\\\"b\""], fromBack (fromWith (some n.toList) "b.org".toList) = some true) := by
  decide +kernel

/-! ## Bounds -/

theorem skipChars_split {cs : List Char} (hcs : NUL ∉ cs) (s : Str) (hs : s.Ok) :
    ∃ a b : Str, s = a ++ b ∧ ∀ r, skipChars cs (s ++ NUL :: r) = some (b ++ NUL :: r) := by
  induction s with
  | nil => exact ⟨[], [], rfl, fun r => by simp [skipChars, hcs]⟩
  | cons c s ih =>
    by_cases h : c ∈ cs
    · obtain ⟨a, b, e, hb⟩ := ih (ok_cons.1 hs).2
      exact ⟨c :: a, b, by rw [e]; rfl, fun r => by simp [skipChars, h, hb]⟩
    · exact ⟨[], c :: s, rfl, fun r => by simp [skipChars, h]⟩

theorem skipName_split (s : Str) (hs : s.Ok) :
    ∃ a b : Str, s = a ++ b ∧ ∀ r, skipName (s ++ NUL :: r) = some (b ++ NUL :: r) := by
  induction s with
  | nil => exact ⟨[], [], rfl, fun r => by simp [skipName, show isNameChar NUL = false by decide]⟩
  | cons c s ih =>
    by_cases h : isNameChar c = true
    · obtain ⟨a, b, e, hb⟩ := ih (ok_cons.1 hs).2
      exact ⟨c :: a, b, by rw [e]; rfl, fun r => by simp [skipName, h, hb]⟩
    · exact ⟨[], c :: s, rfl, fun r => by simp [skipName, h]⟩

theorem fromRest_into (sscanf : Str → Option Nat) (f : From) {t : Str} (ht : t.Ok) (n : Int) {g : Option (List Char)} (r : List Char)
    (hg : ∀ x ∈ g, ∃ b : Str, b.Ok ∧ x = (';' :: b) ++ NUL :: r) :
    ∃ res, fromRest sscanf f (t ++ NUL :: r) n g = some res := by
  have h1 : ∃ i ps, fromGen f.gen_params g = some (i, ps) := by
    cases g with
    | none => exact ⟨_, _, rfl⟩
    | some x =>
      obtain ⟨b, hb, rfl⟩ := hg x rfl
      obtain ⟨⟨i, ps⟩, h⟩ := c71_params_in_bounds (s := ';' :: b) (ok_cons.2 ⟨by decide, hb⟩) (by simp) f.gen_params r
      exact ⟨i, ps, h⟩
  obtain ⟨i, ps, h1⟩ := h1
  unfold fromRest
  simp only [h1, Option.bind_eq_bind, Option.bind_some]
  split
  · exact ⟨_, rfl⟩
  · split
    · exact ⟨_, rfl⟩
    · next hn =>
      rw [strncpy_total ht r (by omega)]
      obtain ⟨res, hres⟩ := c72_uri_in_bounds sscanf (take_ok ht n.toNat)
      simp only [Option.bind_some]
      rw [Str.buf, hres]
      exact ⟨_, rfl⟩

theorem fromUrl_into (sscanf : Str → Option Nat) (f : From) {c : Char} {t : Str} (hc : c ≠ NUL) (ht : t.Ok) (r : List Char) :
    ∃ res, fromUrl sscanf f ((c :: t) ++ NUL :: r) = some res := by
  have hct : Str.Ok (c :: t) := ok_cons.2 ⟨hc, ht⟩
  unfold fromUrl
  simp only [deref, List.cons_append, List.head?_cons, Option.bind_eq_bind, Option.bind_some, List.drop_one, List.tail_cons]
  by_cases h : c = '<'
  · simp only [h, if_true]
    rcases cstrchr_cases (c := '>') ht (by decide) r with ⟨_, e⟩ | ⟨a, b, e0, _, e⟩
    · simp only [e, Option.bind_some]; exact ⟨_, rfl⟩
    · simp only [e, Option.bind_some]
      have hb : Str.Ok b := (ok_cons.1 (ok_append_iff.1 (e0 ▸ ht)).2).2
      have hd : ∃ m, m ≤ ('<' :: t).length ∧ (pdiff ('>' :: b ++ NUL :: r) ('<' :: (t ++ NUL :: r)) - 1).toNat = m :=
        ⟨a.length, by rw [e0]; simp; omega, by rw [e0]; simp [pdiff]; omega⟩
      obtain ⟨m, hm, hm2⟩ := hd
      rw [hm2, show ('<' :: (t ++ NUL :: r)).drop m = ('<' :: t).drop m ++ NUL :: r from drop_str hm r]
      have hlt : Str.Ok ('<' :: t) := ok_cons.2 ⟨by decide, ht⟩
      rcases cstrchr_cases (c := ';') (drop_ok hlt m) (by decide) r with ⟨_, e2⟩ | ⟨a2, b2, e3, _, e2⟩
      · simp only [e2, Option.bind_some]
        exact fromRest_into sscanf f ht _ r (by simp)
      · simp only [e2, Option.bind_some]
        have hb2 : Str.Ok b2 := (ok_cons.1 (ok_append_iff.1 (e3 ▸ drop_ok hlt m)).2).2
        exact fromRest_into sscanf f ht _ r (by simp only [Option.mem_some_iff]; rintro x rfl; exact ⟨b2, hb2, rfl⟩)
  · simp only [h, if_false]
    have hw := fun n g hg => fromRest_into sscanf f hct n (g := g) r hg
    simp only [List.cons_append] at hw
    rcases cstrchr_cases (c := ';') hct (by decide) r with ⟨_, e2⟩ | ⟨a2, b2, e3, _, e2⟩
    · simp only [List.cons_append] at e2
      have k := cstr_at hct r
      simp only [List.cons_append] at k
      simp only [e2, Option.bind_some, k]
      exact hw _ _ (by simp)
    · simp only [List.cons_append] at e2
      simp only [e2, Option.bind_some]
      have hb2 : Str.Ok b2 := (ok_cons.1 (ok_append_iff.1 (e3 ▸ hct)).2).2
      exact hw _ _ (by simp only [Option.mem_some_iff]; rintro x rfl; exact ⟨b2, hb2, rfl⟩)

/-- `*p` for a pointer into the string. -/
theorem deref_str (s : Str) (r : List Char) : ∃ c, deref (s ++ NUL :: r) = some c ∧ (c = NUL → s.Ok → s = []) ∧
    (c ≠ NUL → ∃ t, s = c :: t) := by
  cases s with
  | nil => exact ⟨NUL, rfl, fun _ _ => rfl, fun h => absurd rfl h⟩
  | cons c t => exact ⟨c, rfl, fun h hs => absurd h (ok_cons.1 hs).1, fun _ => ⟨t, rfl⟩⟩

/-- **C73**. The parser of From, To, Route and Record-Route on every string, with any bytes after the terminator:
it reads nothing outside the string and its terminator, writes only to blocks it has allocated, and ends. -/
theorem c73_from_in_bounds (sscanf : Str → Option Nat) {s : Str} (hs : s.Ok) (r : List Char) :
    ∃ res, osip_from_parse sscanf (s ++ NUL :: r) = some res := by
  obtain ⟨a, b, rfl, hb⟩ := skipChars_split (cs := [' ']) (by decide) s hs
  have hbo := (ok_append_iff.1 hs).2
  unfold osip_from_parse
  rw [hb]
  simp only [Option.bind_eq_bind, Option.bind_some]
  obtain ⟨c, hc, hc1, hc2⟩ := deref_str b r
  rw [hc]
  simp only [Option.bind_some]
  by_cases h0 : c = NUL
  · rw [if_pos h0]; exact ⟨_, rfl⟩
  rw [if_neg h0]
  obtain ⟨t, rfl⟩ := hc2 h0
  have hto := (ok_cons.1 hbo).2
  by_cases hq : c = '"'
  · rw [if_pos hq]
    subst hq
    unfold fromQuoted
    rw [drop_nul]
    rcases cquote_find_into hto r with e | ⟨a1, u, e0, e⟩
    · simp only [e, Option.bind_eq_bind, Option.bind_some]; exact ⟨_, rfl⟩
    · have hu : Str.Ok u := (ok_cons.1 (ok_append_iff.1 (e0 ▸ hto)).2).2
      simp only [e, Option.bind_eq_bind, Option.bind_some]
      rw [strncpy_total hbo r (by rw [pdiff_nul, e0]; simp; omega), drop_nul]
      simp only [Option.bind_some]
      obtain ⟨a2, v, e2, hv⟩ := skipChars_split (cs := [' ']) (by decide) u hu
      have hvo : Str.Ok v := (ok_append_iff.1 (e2 ▸ hu)).2
      rw [hv]
      simp only [Option.bind_some]
      obtain ⟨d, hd, _, hd2⟩ := deref_str v r
      rw [hd]
      simp only [Option.bind_some]
      by_cases hlt : d = '<'
      · rw [if_neg (by simp [hlt])]
        obtain ⟨w, rfl⟩ := hd2 (by rw [hlt]; decide)
        rw [drop_nul]
        obtain ⟨x, hx, _⟩ := deref_str w r
        rw [hx]
        simp only [Option.bind_some]
        split
        · exact ⟨_, rfl⟩
        · exact fromUrl_into sscanf _ (ok_cons.1 hvo).1 (ok_cons.1 hvo).2 r
      · rw [if_pos hlt]; exact ⟨_, rfl⟩
  · rw [if_neg hq]
    obtain ⟨a1, v, e1, hv⟩ := skipName_split (c :: t) hbo
    have hvo : Str.Ok v := (ok_append_iff.1 (e1 ▸ hbo)).2
    rw [hv]
    simp only [Option.bind_some]
    obtain ⟨d, hd, _, hd2⟩ := deref_str v r
    rw [hd]
    simp only [Option.bind_some]
    by_cases hd0 : d = NUL
    · rw [if_pos hd0]; exact ⟨_, rfl⟩
    rw [if_neg hd0]
    obtain ⟨w, rfl⟩ := hd2 hd0
    by_cases hlt : d = '<'
    · rw [if_pos hlt, drop_nul]
      obtain ⟨x, hx, _⟩ := deref_str w r
      rw [hx]
      simp only [Option.bind_some]
      split
      · exact ⟨_, rfl⟩
      · split
        · have hl := congrArg List.length e1
          simp only [List.length_append, List.length_cons] at hl
          rw [clrncpy_total hs r (by rw [pdiff_nul]; simp only [List.length_cons]; omega)
            (by rw [pdiff_nul]; simp only [List.length_append, List.length_cons]; omega)]
          simp only [Option.bind_some]
          exact fromUrl_into sscanf _ (ok_cons.1 hvo).1 (ok_cons.1 hvo).2 r
        · exact fromUrl_into sscanf _ (ok_cons.1 hvo).1 (ok_cons.1 hvo).2 r
    · rw [if_neg hlt]
      exact fromUrl_into sscanf _ (ok_cons.1 hbo).1 hto r

/-- **C73** for Contact. -/
theorem c73_contact_in_bounds (sscanf : Str → Option Nat) {s : Str} (hs : s.Ok) (r : List Char) :
    ∃ res, osip_contact_parse sscanf (s ++ NUL :: r) = some res := by
  unfold osip_contact_parse
  obtain ⟨c, hc, _⟩ := deref_str s r
  rw [hc]
  simp only [Option.bind_eq_bind, Option.bind_some]
  split
  · rw [cstr_at hs]; exact ⟨_, rfl⟩
  · exact c73_from_in_bounds sscanf hs r

/-! ## Examples -/

example : osip_from_to_str (fun n => List.replicate n '#') (some {
      displayname := some "\"Bob \\\"B\\\" <x>\"".toList,
      url := some { scheme := some "sip".toList, username := some "b>b".toList, host := some "b.org".toList },
      gen_params := [⟨"tag".toList, some "a1".toList⟩, ⟨"lr".toList, none⟩] }) =
    some (OSIP_SUCCESS, some "\"Bob \\\"B\\\" <x>\" <sip:b%3Eb@b.org>;tag=a1;lr".toList) := by decide +kernel

example : osip_from_parse sscanf2 (Str.buf "\"Bob \\\"B\\\" <x>\" <sip:b%3Eb@b.org>;tag=a1;lr".toList) =
    some (OSIP_SUCCESS, {
      displayname := some "\"Bob \\\"B\\\" <x>\"".toList,
      url := some { scheme := some "sip".toList, username := some "b>b".toList, host := some "b.org".toList },
      gen_params := [⟨"tag".toList, some "a1".toList⟩, ⟨"lr".toList, none⟩] }) := by decide +kernel

example : WfFrom { displayname := some "A. B".toList, url := some (uriWith none []), gen_params := [⟨"lr".toList, none⟩] }
    (uriWith none []) :=
  ⟨rfl, ⟨⟨_, rfl, by decide, by decide⟩, by simp [uriWith, Bytes]; decide, by simp [uriWith],
    ⟨_, rfl, by decide, by decide, by unfold Trimmed; decide, by decide⟩, by simp [uriWith], by simp [uriWith],
    by simp [uriWith], rfl⟩, by simp [uriWith], by simp [uriWith],
    by simp only [Option.mem_some_iff]; rintro n rfl; exact .words (by decide) (by unfold Trimmed; decide) (by decide),
    by simp [WfParam, TextParam, Trimmed]; decide⟩

example : (osip_from_parse sscanf2 (Str.buf "sip:joe@b.org;tag=7".toList)).map (fun x => (x.1, x.2.gen_params)) =
    some (OSIP_SUCCESS, [⟨"tag".toList, some "7".toList⟩]) := by decide +kernel

end Osip
