import Verif.Parse.PropsToStr
import Verif.Parse.PropsAuthStr

/-!
# Writing a message stays inside its blocks

Property C87 for `src/osipparser2/osip_message_to_str.c` and the `…_to_str` functions of the headers.
-/

set_option autoImplicit false

namespace Osip

/-! ## Specification -/

/-- A URI made of strings of bytes, whose headers have values. -/
structure PlainUri (u : Uri) : Prop where
  username : ∀ x ∈ u.username, Bytes x
  password : ∀ x ∈ u.password, Bytes x
  params : ∀ p ∈ u.url_params, Bytes p.gname ∧ ∀ v ∈ p.gvalue, Bytes v
  headers : ∀ h ∈ u.url_headers, Bytes h.gname ∧ ∃ v, h.gvalue = some v ∧ Bytes v

/-- A header without what leads outside the blocks: the URI is one of bytes, an Authentication-Info is not one of `c81_violated`, and an
Accept has type and subtype or neither. -/
def SafeHeader (k : Setter) : HeaderVal → Prop
  | .addr f => ∀ u ∈ f.url, PlainUri u
  | .auth t F => k ∈ [Setter.authorization, .proxy_authorization, .www_authenticate, .proxy_authenticate] ∨
      ((F "nextnonce".toList = none ∨ F "opaque".toList = none) ∧ (t = none ∨ ∃ n ∈ infoFields, F n ≠ none))
  | .media ct => k = .accept → (ct.type = none ↔ ct.subtype = none)
  | _ => True

/-- A message without what leads outside the blocks; in addition the boundary is not one quotation mark. -/
structure SafeMessage (m : SipMessage) : Prop where
  start : ∀ u ∈ m.start.req_uri, PlainUri u
  headers : ∀ k, ∀ x ∈ m.hdr k, SafeHeader k x
  boundary : m.bodies ≠ [] → partBoundary m ≠ some ['"']

/-! ## Headers -/

theorem defined_ok (s : Str) : Defined (some (OSIP_SUCCESS, some s)) := ⟨_, _, rfl, by simp⟩

theorem defined_bad {i : Int} (h : i ≠ 0) (o : Option Str) : Defined (some (i, o)) := ⟨_, _, rfl, fun e => absurd e h⟩

theorem via_defined (v : Via) : Defined (osip_via_to_str (some v)) := by
  obtain ⟨version, protocol, host, port, comment, ps⟩ := v
  cases version with
  | none => exact defined_bad (by decide) _
  | some version =>
  cases protocol with
  | none => exact defined_bad (by decide) _
  | some protocol =>
  cases host with
  | none => exact defined_bad (by decide) _
  | some host =>
    have tail : ∀ len buf, buf.length < len → Defined (viaTailStr ps comment len buf) := by
      intro len buf h
      obtain ⟨len', e, h'⟩ := viaParamsStr_run ps len buf h
      rw [viaTailStr, e]
      simp only [Option.bind_eq_bind, Option.bind_some]
      cases comment with
      | none => exact defined_ok _
      | some c =>
        simp only
        rw [putn_fits (by simp at h' ⊢; omega)]
        exact defined_ok _
    unfold osip_via_to_str
    simp only [Option.bind_eq_bind]
    cases port <;> cases host.contains ':' <;> simp only <;>
      (rw [put_fits (by simp; omega), Option.bind_some]; exact tail _ _ (by simp; omega))

theorem mediaParams_defined (ps : List Param) (len : Nat) (buf : Str) (h : buf.length < len) : Defined (mediaParamsStr ps len buf) := by
  induction ps generalizing len buf with
  | nil => exact defined_ok _
  | cons p ps ih =>
    rw [mediaParamsStr]
    cases p.gvalue with
    | none => exact defined_bad (by decide) _
    | some v =>
      simp only [Option.bind_eq_bind]
      generalize hL : (if len < buf.length + 4 + p.gname.length + v.length + 1 then buf.length + 4 + p.gname.length + v.length + 1 else len) = L
      have hL' : buf.length + 4 + p.gname.length + v.length + 1 ≤ L := by subst hL; split <;> omega
      rw [putn_fits (by simp; omega), Option.bind_some]
      exact ih _ _ (by simp; omega)

theorem content_type_defined (ct : MediaType) : Defined (osip_content_type_to_str (some ct)) := by
  obtain ⟨t, s, ps⟩ := ct
  cases t with
  | none => exact defined_bad (by decide) _
  | some t =>
  cases s with
  | none => exact defined_bad (by decide) _
  | some s =>
    rw [osip_content_type_to_str]
    simp only [Option.bind_eq_bind]
    rw [put_fits (by simp; omega), Option.bind_some]
    exact mediaParams_defined _ _ _ (by simp; omega)

theorem accept_defined (ct : MediaType) (h : ct.type = none ↔ ct.subtype = none) : Defined (osip_accept_to_str (some ct)) := by
  obtain ⟨t, s, ps⟩ := ct
  rw [osip_accept_to_str]
  simp only
  split
  · exact defined_ok _
  cases t with
  | none =>
    have : s = none := h.1 rfl
    subst this
    simp at *
  | some t =>
  cases s with
  | none => exact absurd (h.2 rfl) (by simp)
  | some s =>
    simp only [Option.bind_eq_bind, Option.bind_some]
    rw [put_fits (by simp; omega), Option.bind_some]
    exact mediaParams_defined _ _ _ (by simp; omega)

theorem entry_defined (e : ListEntry) : Defined (osip_entry_to_str (some e)) := by
  obtain ⟨e, ps⟩ := e
  cases e with
  | none => exact defined_bad (by decide) _
  | some e => rw [entry_to_str]; exact defined_ok _

theorem call_id_defined (c : CallId) : Defined (osip_call_id_to_str (some c)) := by
  obtain ⟨n, h⟩ := c
  cases n with
  | none => exact defined_bad (by decide) _
  | some n =>
    cases h with
    | none =>
      rw [osip_call_id_to_str, put_fits (by simp)]
      exact defined_ok _
    | some h =>
      rw [osip_call_id_to_str, put_fits (by simp; omega)]
      exact defined_ok _

theorem cseq_defined (c : CSeq) : Defined (osip_cseq_to_str (some c)) := by
  obtain ⟨m, n⟩ := c
  cases m with
  | none => exact defined_bad (by decide) _
  | some m =>
    cases n with
    | none => exact defined_bad (by decide) _
    | some n =>
      rw [osip_cseq_to_str, putn_fits (by simp; omega)]
      exact defined_ok _

theorem value_defined (v : Option Str) : Defined (osip_content_length_to_str (some v)) := by
  cases v with
  | none => exact defined_bad (by decide) _
  | some v => exact defined_ok _

theorem uriParams_total {fresh : Nat → Buf} (hf : ∀ n, (fresh n).length = n) (ps : List Param)
    (h : ∀ p ∈ ps, Bytes p.gname ∧ ∀ v ∈ p.gvalue, Bytes v) (len : Nat) (buf : Str) (hl : buf.length < len) :
    ∃ buf' len', uriParamsStr fresh ps len buf = some (buf', len') ∧ buf'.length < len' := by
  induction ps generalizing len buf with
  | nil => exact ⟨_, _, rfl, hl⟩
  | cons p ps ih =>
    have ih := ih (fun q hq => h q (by simp [hq]))
    obtain ⟨h1, h5⟩ := h p (by simp)
    obtain ⟨k1, c1, c2⟩ := c57_strcasecmp h1.1 (show Str.Ok "x-obr".toList by decide) [] []
    obtain ⟨k2, c3, c4⟩ := c57_strcasecmp h1.1 (show Str.Ok "x-obp".toList by decide) [] []
    have e1 := esc_eq (dfn := uri_param_def) h1 hf
    simp only [uriParamsStr, Str.buf, c1, c3, Option.bind_eq_bind, Option.bind_some, e1]
    split
    · exact ih _ _ hl
    obtain ⟨name, value⟩ := p
    simp only at h1 h5 e1 ⊢
    cases value with
    | none =>
      simp only
      rw [put_fits (by simp; omega)]
      exact ih _ _ (by simp; omega)
    | some v =>
      have e2 := esc_eq (dfn := uri_param_def) (h5 v rfl) hf
      simp only [e2, Option.bind_some]
      rw [put_fits (by simp; omega)]
      exact ih _ _ (by simp; omega)

theorem uriHeaders_total {fresh : Nat → Buf} (hf : ∀ n, (fresh n).length = n) (hs : List Param)
    (h : ∀ p ∈ hs, Bytes p.gname ∧ ∃ v, p.gvalue = some v ∧ Bytes v) (pos len : Nat) (buf : Str) (hl : buf.length < len) :
    ∃ buf', uriHeadersStr fresh hs pos len buf = some buf' := by
  induction hs generalizing pos len buf with
  | nil => exact ⟨_, rfl⟩
  | cons x hs ih =>
    obtain ⟨name, value⟩ := x
    obtain ⟨h1, v, hv, h3⟩ := h _ (List.mem_cons_self ..)
    simp only at h1 hv
    subst hv
    have e1 := esc_eq (dfn := header_param_def) h1 hf
    have e2 := esc_eq (dfn := header_param_def) h3 hf
    simp only [uriHeadersStr, e1, e2, Option.bind_eq_bind, Option.bind_some, putn]
    rw [if_pos (by omega), List.take_of_length_le (by simp; omega)]
    simp only [Option.bind_some]
    exact ih (fun p hp => h p (by simp [hp])) _ _ _ (by simp; omega)

theorem uriHead_total {fresh : Nat → Buf} (hf : ∀ n, (fresh n).length = n) {u : Uri} (hu : PlainUri u) (scheme host : Str) :
    ∃ buf len, uriHeadStr fresh u scheme host = some (buf, len) ∧ buf.length < len := by
  by_cases h : u.username = none
  · obtain ⟨_, username, password, _, port, _, _, _⟩ := u
    simp only at h
    subst h
    have hh : (if host.contains ':' then '[' :: host ++ [']'] else host) = hostText host := by
      unfold hostText; simp
    have hhl : (hostText host).length ≤ host.length + 2 := by unfold hostText; split <;> simp
    unfold uriHeadStr
    simp only [hh]
    generalize hostText host = H at *
    cases password <;> cases port <;> simp only [Option.bind_eq_bind, Option.bind_some, Nat.add_zero] <;>
      rw [put_fits (by simp; omega)] <;> simp only [Option.bind_some] <;> rw [put_fits (by simp; omega)] <;>
      simp only [Option.bind_some] <;> first
      | exact ⟨_, _, rfl, by simp; omega⟩
      | (rw [put_fits (by simp; omega)]; exact ⟨_, _, rfl, by simp; omega⟩)
  · obtain ⟨len, e, hl⟩ := uriHeadStr_run hf scheme host hu.username (fun x hx => ⟨hu.password x hx, h⟩)
    exact ⟨_, _, e, hl⟩

theorem uri_defined {fresh : Nat → Buf} (hf : ∀ n, (fresh n).length = n) {u : Uri} (hu : PlainUri u) :
    Defined (osip_uri_to_str fresh (some u)) := by
  rw [osip_uri_to_str]
  simp only
  split
  · exact defined_bad (by decide) _
  · exact defined_bad (by decide) _
  · simp only [Option.bind_eq_bind]
    rw [put_fits (by simp; omega), Option.bind_some, put_fits (by simp; omega)]
    exact defined_ok _
  · rename_i host h1 h2
    obtain ⟨b1, l1, e1, k1⟩ := uriHead_total hf hu (u.scheme.getD "sip".toList) host
    obtain ⟨b2, l2, e2, k2⟩ := uriParams_total hf u.url_params hu.params l1 b1 k1
    obtain ⟨b3, e3⟩ := uriHeaders_total hf u.url_headers hu.headers 0 l2 b2 k2
    simp only [Option.bind_eq_bind]
    rw [e1, Option.bind_some]
    simp only
    rw [e2, Option.bind_some]
    simp only
    rw [e3]
    exact defined_ok _

theorem from_defined {fresh : Nat → Buf} (hf : ∀ n, (fresh n).length = n) (f : From) (h : ∀ u ∈ f.url, PlainUri u) :
    Defined (osip_from_to_str fresh (some f)) := by
  rw [osip_from_to_str]
  simp only
  cases hu : f.url with
  | none => exact defined_bad (by decide) _
  | some u =>
    obtain ⟨i, o, e, k⟩ := uri_defined hf (h u hu)
    simp only [Option.bind_eq_bind]
    rw [e, Option.bind_some]
    cases o with
    | none => exact defined_bad (fun hi => k hi rfl) _
    | some url =>
      simp only
      split
      · rename_i hi; exact defined_bad hi _
      · cases f.displayname with
        | none =>
          simp only
          rw [put_fits (by simp), Option.bind_some, fromParamsStr_run _ _ _ (by simp)]
          exact defined_ok _
        | some d =>
          simp only
          rw [put_fits (by simp; omega), Option.bind_some, fromParamsStr_run _ _ _ (by simp; omega)]
          exact defined_ok _

theorem start_defined {fresh : Nat → Buf} (hf : ∀ n, (fresh n).length = n) (s : StartLine) (h : ∀ u ∈ s.req_uri, PlainUri u) :
    Defined (startline_to_str fresh s) := by
  rw [startline_to_str]
  split
  · rw [startline_to_strreq]
    split
    · rename_i u m hu hm
      obtain ⟨i, o, e, k⟩ := uri_defined hf (h u hu)
      simp only [Option.bind_eq_bind]
      rw [e, Option.bind_some]
      cases o with
      | none => exact defined_bad (fun hi => k hi rfl) _
      | some url =>
        simp only
        split
        · rename_i hi; exact defined_bad hi _
        · rw [put_fits (by simp; omega), Option.bind_some, put_fits (by simp; omega), Option.bind_some, put_fits (by simp; omega)]
          exact defined_ok _
    · exact defined_bad (by decide) _
  split
  · rw [startline_to_strresp]
    split
    · exact defined_bad (by decide) _
    · split
      · exact defined_bad (by decide) _
      · rename_i reason _ hc
        have hl : (Nat.toDigits 10 s.status_code.toNat).length = 3 := by
          have a : (Nat.toDigits 10 s.status_code.toNat).length ≤ 3 := (digits_le (by omega)).2 (by omega)
          have b : ¬ (Nat.toDigits 10 s.status_code.toNat).length ≤ 2 := fun e => by have := (digits_le (by omega)).1 e; omega
          omega
        simp only [Option.bind_eq_bind]
        rw [put_fits (by simp; omega), Option.bind_some, if_pos hl, put_fits (by simp [hl]; omega), Option.bind_some,
          put_fits (by simp [hl]; omega)]
        exact defined_ok _
  · exact defined_bad (by decide) _

theorem headerToStr_defined {fresh : Nat → Buf} (hf : ∀ n, (fresh n).length = n) (k : Setter) (x : HeaderVal) (h : SafeHeader k x) :
    Defined (headerToStr fresh k x) := by
  cases x with
  | via v => exact via_defined v
  | callId c => exact call_id_defined c
  | cseq c => exact cseq_defined c
  | entry e => exact entry_defined e
  | value v => exact value_defined v
  | media ct =>
    rw [headerToStr]
    split
    · rename_i hk; exact accept_defined ct (h hk)
    · exact content_type_defined ct
  | addr f =>
    rw [headerToStr]
    split
    · rw [osip_contact_to_str]
      split
      · exact defined_ok _
      · exact from_defined hf f h
    · exact from_defined hf f h
  | auth t F =>
    rw [headerToStr]
    split
    · cases t with
      | none => exact defined_bad (by decide) _
      | some t => rw [authorization_text]; exact defined_ok _
    split
    · cases t with
      | none => exact defined_bad (by decide) _
      | some t =>
        obtain ⟨⟨i, o⟩, e⟩ := (c80_to_str_in_bounds (some t) F).1
        rw [e]
        refine ⟨i, o, rfl, fun _ => ?_⟩
        simp only [osip_www_authenticate_to_str, Option.bind_eq_bind, Option.bind_eq_some_iff] at e
        obtain ⟨_, _, _, _, e⟩ := e
        cases e
        simp
    · rename_i h1 h2
      have h : (F "nextnonce".toList = none ∨ F "opaque".toList = none) ∧ (t = none ∨ ∃ n ∈ infoFields, F n ≠ none) := by
        rcases h with h | h
        · simp only [List.mem_cons, List.not_mem_nil, or_false] at h
          exact absurd h (by grind)
        · exact h
      have hv := (fun e => absurd ((c81_violated t F).1 e) (by grind) : osip_authentication_info_to_str t F ≠ none)
      rcases e : osip_authentication_info_to_str t F with _ | ⟨i, o⟩
      · exact absurd e hv
      · refine ⟨i, o, rfl, fun hi => ?_⟩
        unfold osip_authentication_info_to_str at e
        simp only [Option.bind_eq_bind] at e
        cases t with
        | none =>
          simp only at e
          split at e
          · cases e; exact absurd hi (by decide)
          · simp only [Option.bind_eq_some_iff] at e
            obtain ⟨_, _, _, _, e⟩ := e
            cases e
            simp
        | some t =>
          simp only at e
          rw [if_neg (by omega)] at e
          simp only [Option.bind_eq_some_iff] at e
          obtain ⟨_, _, _, _, e⟩ := e
          cases e
          simp

/-! ## Bodies -/

theorem bodyHeaders_total (hs : List Header) (length : Nat) (buf : Str) (hl : buf.length < length) :
    ∃ i length' buf', bodyHeadersStr hs length buf = some (i, length', buf') ∧ buf'.length < length' := by
  induction hs generalizing length buf with
  | nil => exact ⟨_, _, _, rfl, hl⟩
  | cons h hs ih =>
    rw [bodyHeadersStr]
    rcases defined_cases (header_defined h) with ⟨tmp, hx⟩ | ⟨i, o, hi, hx⟩
    · rw [hx]
      simp only [Option.bind_eq_bind, Option.bind_some]
      rw [if_neg (by simp [OSIP_SUCCESS])]
      generalize hL : (if length < buf.length + tmp.length + 4 then length + tmp.length + 4 else length) = L
      have hL' : buf.length + tmp.length + 4 ≤ L := by subst hL; split <;> omega
      rw [put_fits (by omega), Option.bind_some, put_fits (by simp; omega)]
      exact ih _ _ (by simp; omega)
    · rw [hx]
      simp only [Option.bind_eq_bind, Option.bind_some]
      rw [if_pos hi]
      exact ⟨_, _, _, rfl, hl⟩

theorem body_defined (b : Body) : Defined (osip_body_to_str b) := by
  rw [osip_body_to_str]
  split
  · exact defined_bad (by decide) _
  cases hc : b.content_type with
  | none =>
    obtain ⟨i, l, t, e, hl⟩ := bodyHeaders_total b.headers (15 + b.body.length + b.headers.length * 40) [] (by simp; omega)
    simp only [Option.bind_eq_bind]
    rw [e, Option.bind_some]
    simp only
    split
    · rename_i hi; exact defined_bad hi _
    · rw [bodyEnd_run _ _ _ hl]; exact defined_ok _
  | some ct =>
    simp only [Option.bind_eq_bind]
    rw [put_fits (by simp; omega), Option.bind_some]
    rcases defined_cases (content_type_defined ct) with ⟨tmp, hx⟩ | ⟨i, o, hi, hx⟩
    · rw [hx, Option.bind_some]
      simp only
      rw [if_neg (by simp [OSIP_SUCCESS]), Option.bind_some]
      generalize hB : ([] ++ "content-type: ".toList : Str) = B
      have hB' : B.length = 14 := by subst hB; decide
      generalize hlen : 15 + b.body.length + b.headers.length * 40 = length
      generalize hL : (if length < B.length + tmp.length + 4 then length + tmp.length + 4 else length) = L
      have hL' : B.length + tmp.length + 4 ≤ L := by subst hL; split <;> omega
      rw [put_fits (by omega), Option.bind_some, put_fits (by simp; omega), Option.bind_some]
      obtain ⟨i, l, t, e, hl⟩ := bodyHeaders_total b.headers L (B ++ tmp ++ "\r\n".toList) (by simp; omega)
      rw [e, Option.bind_some]
      simp only
      split
      · rename_i hi; exact defined_bad hi _
      · rw [bodyEnd_run _ _ _ hl]; exact defined_ok _
    · rw [hx, Option.bind_some]
      simp only
      rw [if_pos hi]
      exact defined_bad hi _

theorem putBoundary_total {d : Option Str} (hd : ∀ x ∈ d, x.length ≤ 74) {size : Nat} {text : List Char} (hl : text.length + 80 < size)
    {e : Str} (he : e.length ≤ 4) :
    ∃ t, putBoundary d size text e = some t ∧ text.length ≤ t.length ∧ t.length < size := by
  cases d with
  | none => exact ⟨_, rfl, Nat.le_refl _, by omega⟩
  | some d =>
    have := hd d rfl
    rw [putBoundary, put_fits (by omega), Option.bind_some, put_fits (by simp; omega)]
    exact ⟨_, rfl, by simp, by simp; omega⟩

theorem bodies_total {d : Option Str} (hd : ∀ x ∈ d, x.length ≤ 74) (bs : List Body) (size : Nat) (text : List Char)
    (hl : text.length + 80 < size) :
    ∃ i size' t, bodiesLoop d bs size text = some (i, size', t) ∧ text.length ≤ t.length ∧ (i = 0 → t.length + 80 < size') := by
  induction bs generalizing size text with
  | nil => exact ⟨_, _, _, rfl, Nat.le_refl _, fun _ => hl⟩
  | cons b bs ih =>
    obtain ⟨t, e, h1, h2⟩ := putBoundary_total hd hl (e := "\r\n".toList) (by decide)
    rw [bodiesLoop, e]
    simp only [Option.bind_eq_bind, Option.bind_some]
    rcases defined_cases (body_defined b) with ⟨tmp, hx⟩ | ⟨i, o, hi, hx⟩
    · rw [hx, Option.bind_some]
      simp only
      rw [if_neg (by simp [OSIP_SUCCESS]), Option.bind_some]
      have g := grow_ge size t (100 + tmp.length)
      rw [put_fits (by omega), Option.bind_some]
      obtain ⟨i, s, t', e', h3, h4⟩ := ih (grow size t (100 + tmp.length)) (t ++ tmp) (by simp; omega)
      exact ⟨i, s, t', e', by simp at h3; omega, h4⟩
    · rw [hx, Option.bind_some]
      simp only
      rw [if_pos hi]
      exact ⟨_, _, _, rfl, h1, fun e => absurd e hi⟩

theorem intText_le (v : Int) : (intText (toInt32 v)).length ≤ 11 := by
  have h := toInt32_range v
  rw [intText]
  split
  · have := (digits_le (n := (toInt32 v).natAbs) (k := 10) (by omega)).2 (by omega)
    simp; omega
  · have := (digits_le (n := (toInt32 v).natAbs) (k := 10) (by omega)).2 (by omega)
    first | exact Nat.le_trans this (by omega) | (simp; omega)

theorem boundary_total {m : SipMessage} (h : partBoundary m ≠ some ['"']) :
    (∃ i, i ≠ 0 ∧ mimeBoundary m = some (.error i)) ∨ ∃ o, mimeBoundary m = some (.ok o) ∧ ∀ x ∈ o, x.length ≤ 74 := by
  by_cases h70 : ∀ d ∈ partBoundary m, d.length ≤ 70
  · refine .inr ⟨_, boundary_run fun d hd => ⟨h70 d hd, fun e => h (by rw [← e]; exact hd)⟩, ?_⟩
    intro x hx
    simp only [Option.map_eq_some_iff, Option.mem_def] at hx
    obtain ⟨d, hd, rfl⟩ := hx
    have := h70 d hd
    have : (stripQuotes d).length ≤ d.length := by
      unfold stripQuotes; split <;> simp; omega
    simp
    omega
  · left
    refine ⟨OSIP_SYNTAXERROR, by decide, ?_⟩
    unfold mimeBoundary
    unfold partBoundary at h70
    rcases hv : m.hdr .mime_version with _ | ⟨v, vs⟩
    · simp [hv] at h70
    simp only [hv, reduceCtorEq, if_false, List.head?_cons] at h70 ⊢
    rcases hc : m.contentType with _ | ⟨type, sub, ps⟩
    · simp [hc] at h70
    simp only [hc] at h70 ⊢
    cases type with
    | none => simp at h70
    | some type =>
      simp only at h70 ⊢
      have hl : strcaseEq type "multipart".toList = true ↔ lower type = "multipart".toList := by
        rw [caseEq_lower, show lower "multipart".toList = "multipart".toList by decide]
      by_cases ht : lower type = "multipart".toList
      · rw [if_pos ht] at h70
        rw [if_pos (hl.2 ht)]
        rcases hb : (paramByName ps "boundary").bind (·.gvalue) with _ | g
        · rw [hb] at h70; simp at h70
        · rw [hb] at h70
          simp only [Option.mem_def, Option.some.injEq, forall_eq'] at h70
          simp only
          rw [if_pos (by simp only [MIME_MAX_BOUNDARY_LEN]; omega)]
      · rw [if_neg ht] at h70; simp at h70

theorem overwrite_total {text : List Char} {pos : Int} {s : Str} (h : 0 ≤ pos) (h2 : pos + s.length ≤ text.length) :
    ∃ t, overwrite text pos s = some t := ⟨_, by rw [overwrite, if_pos ⟨h, h2⟩]⟩

theorem bodiesToStr_total {m : SipMessage} {size clpos : Nat} {text : List Char} (h : partBoundary m ≠ some ['"'])
    (hl : text.length + 80 < size) (h1 : 16 ≤ clpos) (h2 : clpos + 5 ≤ text.length) :
    ∃ res, bodiesToStr m size text clpos = some res := by
  rcases boundary_total h with ⟨i, hi, e⟩ | ⟨o, e, ho⟩
  · unfold bodiesToStr
    rw [e]
    exact ⟨_, rfl⟩
  · obtain ⟨i, s', t, e2, h3, h4⟩ := bodies_total ho m.bodies size text hl
    by_cases hi : i = 0
    · obtain ⟨t3, e3, h5, h6⟩ := putBoundary_total ho (h4 hi) (e := "--\r\n".toList) (by decide)
      have hlen := intText_le ((t3.length - text.length : Nat) : Int)
      obtain ⟨t4, e4⟩ := overwrite_total (text := t3) (pos := clpos + 5 - (intText (toInt32 ((t3.length - text.length : Nat) : Int))).length)
        (s := intText (toInt32 ((t3.length - text.length : Nat) : Int))) (by omega) (by omega)
      subst hi
      exact ⟨_, bodiesToStr_run e e2 e3 e4⟩
    · unfold bodiesToStr
      rw [e, Option.bind_eq_bind, Option.bind_some]
      show ∃ res, (bodiesLoop o m.bodies size text).bind _ = _
      rw [e2, Option.bind_some]
      exact ⟨_, if_pos hi⟩

/-! ## Property -/

/-- **C87**. Writing a message never goes outside the blocks. Missing: the headers and boundaries excluded by `SafeMessage`, see `c87_violated`
and `c81_violated`. -/
theorem c87_in_bounds_partial {fresh : Nat → Buf} (hf : ∀ n, (fresh n).length = n) (sipfrag : Bool) {m : SipMessage} (hm : SafeMessage m) :
    ∃ res, osip_message_to_str fresh sipfrag m = some res := by
  unfold osip_message_to_str
  cases m.cached with
  | some t => exact ⟨_, rfl⟩
  | none =>
    obtain ⟨i, tmp, e, h0⟩ := start_defined hf m.start hm.start
    simp only [Option.bind_eq_bind, e, Option.bind_some]
    split
    · exact ⟨_, rfl⟩
    rename_i hi
    have hst : ∃ size text, (if i ≠ 0 then some (SIP_MESSAGE_MAX_LENGTH, ([] : Str)) else tmp.bind fun tmp =>
        (put (grow SIP_MESSAGE_MAX_LENGTH [] (tmp.length + 3 + 100)) [] tmp).bind fun text =>
        (put (grow SIP_MESSAGE_MAX_LENGTH [] (tmp.length + 3 + 100)) text "\r\n".toList).bind fun text =>
        some (grow SIP_MESSAGE_MAX_LENGTH [] (tmp.length + 3 + 100), text)) = some (size, text) ∧ text.length < size := by
      by_cases hi0 : i = 0
      · rw [if_neg (by simpa using hi0)]
        cases tmp with
        | none => exact absurd rfl (h0 hi0)
        | some tmp =>
          have g := grow_ge SIP_MESSAGE_MAX_LENGTH [] (tmp.length + 3 + 100)
          simp only [List.length_nil] at g
          rw [Option.bind_some, put_fits (by simp; omega), Option.bind_some, put_fits (by simp; omega)]
          exact ⟨_, _, rfl, by simp; omega⟩
      · rw [if_pos hi0]
        exact ⟨_, _, rfl, by decide⟩
    obtain ⟨s0, t0, e0, l0⟩ := hst
    simp only [Option.pure_def] at e0 ⊢
    rw [e0, Option.bind_some]
    simp only
    obtain ⟨i1, s1, t1, e1, l1⟩ := table_total fresh m headerOrder
      (fun q _ x hx => headerToStr_defined hf q.1 x (hm.headers q.1 x hx)) s0 t0 l0
    rw [table_order, e1, Option.bind_some]
    simp only
    split
    · exact ⟨_, rfl⟩
    obtain ⟨i2, s2, t2, e2, l2⟩ := other_total m.headers s1 t1 l1
    rw [e2, Option.bind_some]
    simp only
    split
    · exact ⟨_, rfl⟩
    have g := grow_ge s2 t2 (16 + 100)
    generalize grow s2 t2 (16 + 100) = G at g
    split
    · rw [put_fits (by simp; omega)]; exact ⟨_, rfl⟩
    rw [put_fits (by simp; omega), Option.bind_some]
    have hz : ∀ z : Str, z.length ≤ 5 → ∃ t3 t4 t5, put G (t2 ++ "Content-Length: ".toList) z = some t3 ∧ put G t3 "\r\n".toList = some t4 ∧
        put G t4 "\r\n".toList = some t5 ∧ t5.length = t2.length + 20 + z.length := by
      intro z hz
      refine ⟨_, _, _, put_fits (by simp; omega), put_fits (by simp; omega), put_fits (by simp; omega), by simp; omega⟩
    by_cases hb : m.bodies = []
    · obtain ⟨t3, t4, t5, e3, e4, e5, -⟩ := hz "0".toList (by decide)
      rw [if_pos hb, e3, Option.bind_some, e4, Option.bind_some, e5, Option.bind_some, if_pos hb]
      exact ⟨_, rfl⟩
    · obtain ⟨t3, t4, t5, e3, e4, e5, l5⟩ := hz "     ".toList (by decide)
      rw [if_neg hb, e3, Option.bind_some, e4, Option.bind_some, e5, Option.bind_some, if_neg hb]
      have : "     ".toList.length = 5 := by decide
      exact bodiesToStr_total (hm.boundary hb) (by omega) (by simp) (by simp; omega)

/-- A 200 response with these headers and bodies. -/
def okWith (hdr : Setter → List HeaderVal) (bodies : List Body) : SipMessage :=
  { start := { sip_version := some "SIP/2.0".toList, status_code := 200, reason_phrase := some "OK".toList }, hdr := hdr, bodies := bodies }

/-- One header. -/
def oneHeader (k : Setter) (x : HeaderVal) : Setter → List HeaderVal := fun j => if j = k then [x] else []

/-- **C87** does not hold: a multipart body whose boundary is one quotation mark makes `len - 2` a huge `size_t`, a nameless Accept passes a
null pointer to `sprintf`, and an Authentication-Info with `nextnonce` and `opaque` is written behind its block. -/
theorem c87_violated :
    osip_message_to_str (fun n => List.replicate n ' ') false
      (okWith (fun k => if k = .content_type then [.media ⟨some "multipart".toList, some "mixed".toList, [⟨"boundary".toList, some ['"']⟩]⟩]
        else if k = .mime_version then [.value (some "1.0".toList)] else []) [⟨"x".toList, [], none⟩]) = none ∧
    osip_message_to_str (fun n => List.replicate n ' ') false
      (okWith (oneHeader .accept (.media ⟨none, some "plain".toList, []⟩)) []) = none ∧
    osip_message_to_str (fun n => List.replicate n ' ') false
      (okWith (oneHeader .authentication_info (.auth none fun n =>
        if n = "nextnonce".toList ∨ n = "opaque".toList then some "\"1\"".toList else none)) []) = none := by
  have h : ∀ o : Option (Int × SipMessage × Option (List Char)), o.isNone = true → o = none := by intro o; cases o <;> simp
  exact ⟨h _ (by decide +kernel), h _ (by decide +kernel), h _ (by decide +kernel)⟩

example : SafeMessage (okWith (oneHeader .from (.addr ⟨none, some ⟨some "sip".toList, some "a b".toList, none,
    some "h".toList, none, [], [], none⟩, []⟩)) [⟨"x".toList, [], none⟩]) := by
  refine ⟨by simp [okWith], ?_, by simp [okWith, partBoundary, oneHeader]⟩
  intro k x hx
  simp only [okWith, oneHeader] at hx
  split at hx
  · simp only [List.mem_singleton] at hx
    subst hx
    intro u hu
    simp only [Option.mem_def, Option.some.injEq] at hu
    subst hu
    refine ⟨?_, by simp, by simp, by simp⟩
    intro x hx
    simp only [Option.mem_def, Option.some.injEq] at hx
    subst hx
    exact ⟨by decide, by decide, by decide⟩
  · cases hx

/-! ## The length of the body -/

/-- **C47**. A message that is written ends with a line Content-Length which holds the decimal number of bytes behind the empty line. Missing:
bodies of 10^6 bytes and more, see `c47_violated`, and headers held by pointers which cannot be written, see `c55_violated`. -/
theorem c47_content_length_partial {fresh : Nat → Buf} {m m' : SipMessage} {T : List Char} (hc : m.cached = none) (hm : m.Singles)
    (hs : ∀ k ∈ oneOnly, k ≠ .content_length → ∀ x ∈ m.hdr k, Written (headerToStr fresh k x))
    (h : osip_message_to_str fresh false m = some (OSIP_SUCCESS, m', some T)) (hl : (bodyPart m).length < 10 ^ 6) :
    ∃ H n, T = H ++ "Content-Length:".toList ++ List.replicate n ' ' ++ Nat.toDigits 10 (bodyPart m).length ++ "\r\n\r\n".toList ++ bodyPart m ∧
      "\r\n".toList <:+ H := by
  obtain ⟨h1, h2, h3, h4, h5⟩ := to_str_inv hc h
  have hS : Serialisable fresh m := ⟨h1, fun k hk x hx => by
    by_cases ho : k ∈ oneOnly
    · exact hs k ho hk x hx
    · exact h2 k ho x hx, h3, h4, h5⟩
  rw [to_str_run hc hm hS (by omega)] at h
  simp only [Option.some.injEq, Prod.mk.injEq, true_and] at h
  refine ⟨headText fresh m, if m.bodies = [] then 1 else 6 - (Nat.toDigits 10 (bodyPart m).length).length, ?_, ?_⟩
  · rw [← h.2]
    congr 2
    simp only [List.append_assoc]
    congr 1
    rw [lengthText]
    by_cases hb : m.bodies = []
    · rw [if_pos hb, if_pos hb, bodyPart, if_pos hb]
      decide
    · rw [if_neg hb, if_neg hb, ← List.append_assoc]
      congr 1
      have hd := (digits_le (n := (bodyPart m).length) (k := 6) (by omega)).2 hl
      generalize (Nat.toDigits 10 (bodyPart m).length).length = d at hd
      have : ∀ d : Fin 7, "Content-Length:      ".toList.take (21 - d.val) = "Content-Length:".toList ++ List.replicate (6 - d.val) ' ' := by decide
      exact this ⟨d, by omega⟩
  · unfold headText
    have a : ∀ hs : List Header, ∀ P : Str, "\r\n".toList <:+ P → "\r\n".toList <:+ P ++ otherLines hs := by
      intro hs
      induction hs with
      | nil => intro P hP; simpa [otherLines] using hP
      | cons x hs ih =>
        intro P hP
        have := ih (P ++ (writtenText (osip_header_to_str (some x)) ++ "\r\n".toList))
          ⟨P ++ writtenText (osip_header_to_str (some x)), by rw [List.append_assoc]⟩
        simpa [otherLines] using this
    have b : ∀ rows : List (Setter × String), ∀ P : Str, "\r\n".toList <:+ P → "\r\n".toList <:+ P ++ knownLines fresh m rows := by
      intro rows
      induction rows with
      | nil => intro P hP; simpa [knownLines] using hP
      | cons x rows ih =>
        intro P hP
        obtain ⟨k, name⟩ := x
        have c : ∀ xs : List HeaderVal, ∀ P : Str, "\r\n".toList <:+ P →
            "\r\n".toList <:+ P ++ xs.flatMap fun x => headerLine name.toList (writtenText (headerToStr fresh k x)) := by
          intro xs
          induction xs with
          | nil => intro P hP; simpa using hP
          | cons y ys ih2 =>
            intro P hP
            have := ih2 (P ++ headerLine name.toList (writtenText (headerToStr fresh k y)))
              ⟨P ++ (name.toList ++ ": ".toList ++ writtenText (headerToStr fresh k y)), by simp [headerLine]⟩
            simpa using this
        have := ih _ (c (m.hdr k) P hP)
        simpa [knownLines] using this
    exact a _ _ (b _ _ (List.suffix_append _ _))

theorem okWith_serialisable (fresh : Nat → Buf) (bs : List Body) (h : ∀ b ∈ bs, Written (osip_body_to_str b)) :
    Serialisable fresh (okWith (fun _ => []) bs) := by
  refine ⟨⟨"SIP/2.0 200 OK".toList, ?_⟩, fun k _ x hx => by simp [okWith] at hx, fun x hx => by simp [okWith] at hx, h, ?_⟩
  · rw [startline_to_str, if_neg (by simp [okWith]), if_pos (by simp [okWith])]
    show startline_to_strresp { sip_version := some "SIP/2.0".toList, status_code := 200, reason_phrase := some "OK".toList } = _
    decide +kernel
  · intro _ d hd
    simp [okWith, partBoundary] at hd

/-- **C47** does not hold for bodies from 10^6 bytes on: the colon is overwritten with the first digit. There is such a message. -/
theorem c47_violated (fresh : Nat → Buf) :
    (∀ m, m.cached = none → m.Singles → Serialisable fresh m → 10 ^ 6 ≤ (bodyPart m).length → (bodyPart m).length < 10 ^ 7 →
      ∃ m', osip_message_to_str fresh false m = some (OSIP_SUCCESS, m', some (headText fresh m ++ "Content-Length".toList ++
        Nat.toDigits 10 (bodyPart m).length ++ "\r\n\r\n".toList ++ bodyPart m))) ∧
    ∃ m : SipMessage, m.cached = none ∧ m.Singles ∧ Serialisable fresh m ∧ (bodyPart m).length = 10 ^ 6 := by
  constructor
  · intro m hc hm hS h1 h2
    have hr := to_str_run hc hm hS (by omega)
    have hb : m.bodies ≠ [] := by
      intro e
      simp [bodyPart, e] at h1
    have hd : (Nat.toDigits 10 (bodyPart m).length).length = 7 := by
      have a := (digits_le (n := (bodyPart m).length) (k := 7) (by omega)).2 h2
      have b : ¬ (Nat.toDigits 10 (bodyPart m).length).length ≤ 6 := fun e => by
        have := (digits_le (n := (bodyPart m).length) (k := 6) (by omega)).1 e
        omega
      omega
    have : "Content-Length:      ".toList.take (21 - 7) = "Content-Length".toList := by decide
    rw [lengthText, if_neg hb, hd, this, ← List.append_assoc] at hr
    exact ⟨_, hr⟩
  · have hw : ∀ d : Str, d ≠ [] → osip_body_to_str ⟨d, [], none⟩ = some (OSIP_SUCCESS, some d) := by
      intro d hd
      have hl : 0 < d.length := List.length_pos_iff.2 hd
      rw [osip_body_to_str, if_neg (by simp only; omega)]
      simp only [bodyHeadersStr, Option.bind_eq_bind, Option.bind_some]
      rw [if_neg (by simp [OSIP_SUCCESS]), bodyEnd_run _ _ _ (by simp; omega)]
      simp
    obtain ⟨d, hd⟩ : ∃ d : Str, d.length = 10 ^ 6 := ⟨List.replicate (10 ^ 6) 'x', List.length_replicate⟩
    have hne : d ≠ [] := by
      intro e
      rw [e] at hd
      exact absurd hd (by decide)
    refine ⟨okWith (fun _ => []) [⟨d, [], none⟩], rfl, fun k _ => by simp [okWith], ?_, ?_⟩
    · refine okWith_serialisable _ _ fun b hb => ?_
      simp only [List.mem_singleton] at hb
      subst hb
      exact ⟨_, hw _ hne⟩
    · have hp : partBoundary (okWith (fun _ => []) [⟨d, [], none⟩]) = none := by
        simp [partBoundary, okWith]
      rw [bodyPart, if_neg (by simp [okWith]), hp]
      simp only [Option.map_none, bodiesText, okWith, List.flatMap_cons, List.flatMap_nil, List.append_nil]
      rw [hw _ hne]
      exact hd

example : (osip_message_to_str (fun n => List.replicate n ' ') false (okWith (fun _ => []) [⟨"0123456789ab".toList, [], none⟩])).map (·.2.2) =
    some (some "SIP/2.0 200 OK\r\nContent-Length:    12\r\n\r\n0123456789ab".toList) := by decide +kernel

/-! ## Headers which cannot be written -/

/-- **C55**. No success is reported if the start line, a header which may occur several times, an other header or a body cannot be written.
Missing: the headers held by pointers, see `c55_violated`. -/
theorem c55_error_partial {fresh : Nat → Buf} {m m' : SipMessage} {T : Option (List Char)} {i : Int} (hc : m.cached = none)
    (h : osip_message_to_str fresh false m = some (i, m', T))
    (hbad : ¬ Written (startline_to_str fresh m.start) ∨ (∃ k, k ∉ oneOnly ∧ ∃ x ∈ m.hdr k, ¬ Written (headerToStr fresh k x)) ∨
      (∃ x ∈ m.headers, ¬ Written (osip_header_to_str (some x))) ∨ ∃ b ∈ m.bodies, ¬ Written (osip_body_to_str b)) :
    i ≠ OSIP_SUCCESS := by
  intro hi
  subst hi
  obtain ⟨h1, h2, h3, h4, _⟩ := to_str_inv hc h
  rcases hbad with hb | ⟨k, hk, x, hx, hb⟩ | ⟨x, hx, hb⟩ | ⟨b, hx, hb⟩
  · exact hb h1
  · exact hb (h2 k hk x hx)
  · exact hb (h3 x hx)
  · exact hb (h4 b hx)

example : (osip_message_to_str (fun n => List.replicate n ' ') false (okWith (oneHeader .via (.via {})) [])).map (·.1) =
    some OSIP_BADPARAMETER := by decide +kernel

/-- **C55** does not hold for a header held by a pointer: a Content-Type with a parameter without value, as it is read from the text below, cannot
be written, but success is reported and the next header is glued to the name. -/
theorem c55_violated :
    (osip_content_type_parse (some "text/plain;foo\x00".toList)) = some (OSIP_SUCCESS, ⟨some "text".toList, some "plain".toList, [⟨"foo".toList, none⟩]⟩) ∧
    (headerToStr (fun n => List.replicate n ' ') .content_type (.media ⟨some "text".toList, some "plain".toList, [⟨"foo".toList, none⟩]⟩)) =
      some (OSIP_SYNTAXERROR, none) ∧
    (osip_message_to_str (fun n => List.replicate n ' ') false (okWith (oneHeader .content_type
      (.media ⟨some "text".toList, some "plain".toList, [⟨"foo".toList, none⟩]⟩)) [])).map (fun r => (r.1, r.2.2)) =
      some (OSIP_SUCCESS, some "SIP/2.0 200 OK\r\nContent-Type: Content-Length: 0\r\n\r\n".toList) := by
  refine ⟨by decide +kernel, by decide +kernel, by decide +kernel⟩

/-! ## The text of a message -/

/-- **C86**. A message whose parts can be written is written as start line, headers in the order of `headerOrder`, other headers,
Content-Length, empty line and bodies; the message then holds this text, and writing it again gives it again. -/
theorem c86_text {fresh : Nat → Buf} {m : SipMessage} (hc : m.cached = none) (hm : m.Singles) (hs : Serialisable fresh m)
    (hl : (bodyPart m).length < 2 ^ 31) :
    ∃ m', osip_message_to_str fresh false m = some (OSIP_SUCCESS, m', some (headText fresh m ++ lengthText m ++ "\r\n\r\n".toList ++ bodyPart m)) ∧
      m'.start = m.start ∧ m'.hdr = m.hdr ∧ m'.headers = m.headers ∧ m'.bodies = m.bodies ∧
      ∀ sipfrag, osip_message_to_str fresh sipfrag m' =
        some (OSIP_SUCCESS, m', some (headText fresh m ++ lengthText m ++ "\r\n\r\n".toList ++ bodyPart m)) :=
  ⟨_, to_str_run hc hm hs hl, rfl, rfl, rfl, rfl, fun _ => rfl⟩

example : (osip_message_to_str (fun n => List.replicate n ' ') false { okWith (fun k => if k = .via then
      [.via { version := some "2.0".toList, protocol := some "UDP".toList, host := some "a".toList },
       .via { version := some "2.0".toList, protocol := some "TCP".toList, host := some "b".toList }]
      else if k = .cseq then [.cseq { number := some "1".toList, method := some "ACK".toList }] else []) [] with
      headers := [{ hname := some "x".toList, hvalue := some "y".toList }] }).map (·.2.2) =
    some (some "SIP/2.0 200 OK\r\nVia: SIP/2.0/UDP a\r\nVia: SIP/2.0/TCP b\r\nCSeq: 1 ACK\r\nX: y\r\nContent-Length: 0\r\n\r\n".toList) := by
  decide +kernel

end Osip
