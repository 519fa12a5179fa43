import Verif.Parse.NoEol

/-!
# Written headers have no line ends in them

The `…_to_str` functions write the parts of a header, characters of their own and escaped text, which has no CR and LF whatever
is escaped. Lemmas for `Verif/Parse/PropsInject.lean`.
-/

set_option autoImplicit false

namespace Osip

/-! ## Escaping -/

theorem ofNat_noEol {k : Nat} (hk : 32 ≤ k) : Char.ofNat k ≠ '\r' ∧ Char.ofNat k ≠ '\n' := by
  by_cases hv : k.isValidChar
  · have h1 : (Char.ofNat k).toNat = k := by simp [Char.ofNat, hv, Char.ofNatAux, Char.toNat]
    constructor <;> intro h <;> rw [h] at h1 <;> simp at h1 <;> omega
  · have : Char.ofNat k = '\x00' := by simp [Char.ofNat, hv]; rfl
    rw [this]; decide

theorem hexDigit_noEol (n : Nat) : hexDigit n ≠ '\r' ∧ hexDigit n ≠ '\n' := by
  unfold hexDigit
  split
  · exact ofNat_noEol (by omega)
  · exact ofNat_noEol (by omega)

theorem noEol_sprintfHex (c : Char) : NoEol (sprintfHex c) := by
  have h1 := hexDigit_noEol (c.toNat / 16)
  have h2 := hexDigit_noEol (c.toNat % 16)
  have h3 : NUL ≠ '\r' ∧ NUL ≠ '\n' := by decide
  simp [sprintfHex, h1, h2, h3]

theorem alphanum_noEol {c : Char} (h : isAlphanum c = true) : c ≠ '\r' ∧ c ≠ '\n' := by
  constructor <;> rintro rfl <;> revert h <;> decide

theorem wr_parts {b b' : Buf} {n : Nat} {c : Char} (h : b.wr n c = some b') :
    ∃ a x r, b = a ++ x :: r ∧ b' = a ++ c :: r ∧ a.length = n := by
  unfold Buf.wr at h
  split at h
  · rename_i hn
    cases h
    have hn' : n < b.length := by simpa using hn.2
    refine ⟨b.take n, b[n], b.drop (n + 1), by simp, ?_, by simp; omega⟩
    simp [List.set_eq_take_append_cons_drop, hn']
  · cases h

theorem noEol_wr {b b' : Buf} {n : Nat} {c : Char} (h : b.wr n c = some b') (hb : NoEol (b.take n)) (hc : c ≠ '\r' ∧ c ≠ '\n') :
    NoEol (b'.take (n + 1)) ∧ b'.length = b.length := by
  obtain ⟨a, x, r, rfl, rfl, rfl⟩ := wr_parts h
  simp at hb
  simp [List.take_append, hb, hc]
  exact noEol_take _ hb

theorem noEol_wrN {b b' : Buf} {n : Nat} {cs : List Char} {k : Nat} (h : b.wrN n cs = some b') (hb : NoEol (b.take n)) (hc : NoEol cs)
    (hk : k ≤ cs.length) : NoEol (b'.take (n + k)) ∧ b'.length = b.length ∧ n + cs.length ≤ b.length := by
  unfold Buf.wrN at h
  split at h
  · rename_i hn
    cases h
    have hn' : n + cs.length ≤ b.length := by simpa using hn.2
    have hl : (b.take n).length = n := by simp; omega
    refine ⟨?_, by simp; omega, hn'⟩
    have : ((b.take n ++ cs) ++ b.drop (n + cs.length)).take (n + k) = b.take n ++ cs.take k := by
      rw [List.take_append_of_le_length (by simp; omega), List.take_append, hl, List.take_of_length_le (by omega)]
      congr 2; omega
    simp only [Int.toNat_natCast]
    rw [this]
    simp [hb, noEol_take _ hc]
  · cases h

theorem noEol_escapeLoop {dfn : Str} (hd : NoEol dfn) {fresh : Nat → Buf} (hf : ∀ n, (fresh n).length = n) (s : Str) :
    ∀ {ns b : Buf} {alloc newlen index k : Nat}, escapeLoop dfn fresh s ns alloc newlen index = some (b, k) → ns.length = alloc →
      NoEol (ns.take index) → index ≤ alloc → NoEol (b.take k) := by
  induction s with
  | nil => intro ns b alloc newlen index k h _ h2 _; cases h; exact h2
  | cons c s ih =>
    intro ns b alloc newlen index k h h1 h2 h3
    unfold escapeLoop at h
    split at h
    · cases h
    split at h
    · rename_i hc
      simp only [Option.bind_eq_bind, Option.bind_eq_some_iff] at h
      obtain ⟨ns', hw, h⟩ := h
      have hc' : c ≠ '\r' ∧ c ≠ '\n' := by
        rcases Bool.or_eq_true_iff.1 hc with hc | hc
        · exact alphanum_noEol hc
        · exact hd c (by simpa using hc)
      obtain ⟨g1, g2⟩ := noEol_wr hw h2 hc'
      refine ih h (by omega) g1 ?_
      unfold Buf.wr at hw
      split at hw
      · rename_i hn; have := hn.2; simp at this; omega
      · cases hw
    · simp only [Option.bind_eq_bind, Option.bind_eq_some_iff] at h
      obtain ⟨ns', hw, h⟩ := h
      have hr : (if decide (newlen + 2 > alloc) = true then Buf.realloc ns (alloc * 2) fresh else ns).take index = ns.take index ∧
          (if decide (newlen + 2 > alloc) = true then Buf.realloc ns (alloc * 2) fresh else ns).length =
            (if decide (newlen + 2 > alloc) = true then alloc * 2 else alloc) := by
        split
        · unfold Buf.realloc
          rw [List.take_of_length_le (by omega : ns.length ≤ alloc * 2), List.take_append_of_le_length (by omega)]
          simp [hf]
          omega
        · exact ⟨rfl, h1⟩
      obtain ⟨g1, g2, g3⟩ := noEol_wrN (k := 3) hw (by rw [hr.1]; exact h2) (noEol_sprintfHex c) (by simp [sprintfHex])
      refine ih h (by rw [g2, hr.2]) g1 ?_
      rw [hr.2] at g3
      simp [sprintfHex] at g3 ⊢
      omega

theorem noEol_esc {dfn : Str} (hd : NoEol dfn) {fresh : Nat → Buf} (hf : ∀ n, (fresh n).length = n) {s t : Str}
    (h : esc fresh dfn s = some t) : NoEol t := by
  unfold esc uri_escape at h
  simp only [Option.bind_eq_bind, Option.map_eq_some_iff, Option.bind_eq_some_iff] at h
  obtain ⟨b, ⟨⟨ns, k⟩, hl, hw⟩, rfl⟩ := h
  have h1 := noEol_escapeLoop hd hf s hl (hf _) (by simp) (by omega)
  have hn : NUL ≠ '\r' ∧ NUL ≠ '\n' := by decide
  obtain ⟨a, x, r, rfl, rfl, rfl⟩ := wr_parts hw
  simp at h1
  unfold Buf.str
  intro c hc
  simp only [List.takeWhile_append] at hc
  split at hc
  · simp at hc; exact h1 c hc
  · exact h1 c ((List.takeWhile_prefix _).mem hc)

theorem noEol_put {len : Nat} {b s r : Str} (h : put len b s = some r) (hb : NoEol b) (hs : NoEol s) : NoEol r := by
  unfold put at h
  grind

theorem noEol_putn {len : Nat} {b s r : Str} (h : putn len b s = some r) (hb : NoEol b) (hs : NoEol s) : NoEol r := by
  unfold putn at h
  split at h
  · cases h; simp [hb, noEol_take _ hs]
  · cases h

attribute [grind →] noEol_put noEol_putn

/-! ## URIs -/

theorem marks_noEol : NoEol userinfo_def ∧ NoEol password_def ∧ NoEol uri_param_def ∧ NoEol header_param_def := by decide

theorem noEol_uriParamsStr {fresh : Nat → Buf} (hf : ∀ n, (fresh n).length = n) (ps : List Param) : ∀ {len n : Nat} {b r : Str},
    uriParamsStr fresh ps len b = some (r, n) → NoEol b → NoEol r := by
  have hm := marks_noEol.2.2.1
  induction ps with
  | nil => intro len n b r h hb; cases h; exact hb
  | cons p ps ih =>
    intro len n b r h hb
    unfold uriParamsStr at h
    walk h
    all_goals grind [noEol_esc]

theorem noEol_uriHeadersStr {fresh : Nat → Buf} (hf : ∀ n, (fresh n).length = n) (ps : List Param) : ∀ {len n : Nat} {b r : Str},
    uriHeadersStr fresh ps n len b = some r → NoEol b → NoEol r := by
  have hm := marks_noEol.2.2.2
  induction ps with
  | nil => intro len n b r h hb; cases h; exact hb
  | cons p ps ih =>
    intro len n b r h hb
    simp only [uriHeadersStr, Option.bind_eq_bind, Option.bind_eq_some_iff] at h
    obtain ⟨t1, h1, v, -, t2, h2, b2, h3, h⟩ := h
    have g1 := noEol_esc hm hf h1
    have g2 := noEol_esc hm hf h2
    refine ih h (noEol_putn h3 hb ?_)
    split <;> simp [g1, g2]

theorem noEol_uriHeadStr {fresh : Nat → Buf} (hf : ∀ n, (fresh n).length = n) {u : Uri} (hu : u.NoEol) {sc h r : Str} {n : Nat}
    (e : uriHeadStr fresh u sc h = some (r, n)) (hs : NoEol sc) (hh : NoEol h) : NoEol r := by
  obtain ⟨hm1, hm2, -, -⟩ := marks_noEol
  obtain ⟨-, -, hp, -⟩ := hu
  unfold uriHeadStr at e
  simp only [Option.bind_eq_bind, Option.bind_eq_some_iff, Option.pure_def, Option.some.injEq, Prod.mk.injEq] at e
  obtain ⟨b1, h1, b2, h2, b3, h3, b4, h4, b5, h5, b6, h6, rfl, -⟩ := e
  have g1 : NoEol b1 := noEol_put h1 (by simp) (by simp [hs])
  have g2 : NoEol b2 := by
    walk h2 <;> grind [noEol_esc]
  have g3 : NoEol b3 := by
    walk h3 <;> grind [noEol_esc]
  have g4 : NoEol b4 := by
    walk h4 <;> grind
  have g5 : NoEol b5 := by
    refine noEol_put h5 g4 ?_
    split <;> simp [hh]
  walk h6 <;> grind

theorem noEol_uri_to_str {fresh : Nat → Buf} (hf : ∀ n, (fresh n).length = n) {u : Uri} (hu : u.NoEol) {i : Int} {t : Str}
    (e : osip_uri_to_str fresh (some u) = some (i, some t)) : NoEol t := by
  have hu' := hu
  obtain ⟨hs, hh, hp, hst⟩ := hu'
  have hsip : NoEol "sip".toList := by decide
  unfold osip_uri_to_str at e
  simp only at e
  split at e
  · cases e
  · cases e
  · walk e <;> grind
  · simp only [Option.bind_eq_bind, Option.bind_eq_some_iff, Option.pure_def, Option.some.injEq, Prod.mk.injEq] at e
    obtain ⟨⟨b1, n1⟩, h1, ⟨b2, n2⟩, h2, b3, h3, -, rfl⟩ := e
    have g1 : NoEol b1 := by
      refine noEol_uriHeadStr hf hu h1 ?_ (by grind)
      cases hsc : u.scheme with
      | none => exact hsip
      | some x => exact hs x hsc
    exact noEol_uriHeadersStr hf _ h3 (noEol_uriParamsStr hf _ h2 g1)

/-! ## The other headers -/

theorem noEol_fromParamsStr (ps : List Param) : ∀ {len : Nat} {b r : Str}, fromParamsStr ps len b = some r → ParamsNoEol ps → NoEol b → NoEol r := by
  induction ps with
  | nil => intro len b r h _ hb; cases h; exact hb
  | cons p ps ih =>
    intro len b r h hp hb
    unfold fromParamsStr at h
    walk h <;> grind

theorem noEol_from_to_str {fresh : Nat → Buf} (hf : ∀ n, (fresh n).length = n) {f : From} (h : f.NoEol) {i : Int} {t : Str}
    (e : osip_from_to_str fresh (some f) = some (i, some t)) : NoEol t := by
  obtain ⟨h1, h2, h3⟩ := h
  unfold osip_from_to_str at e
  walk e <;> grind [noEol_uri_to_str, noEol_fromParamsStr]

theorem noEol_contact_to_str {fresh : Nat → Buf} (hf : ∀ n, (fresh n).length = n) {f : From} (h : f.NoEol) {i : Int} {t : Str}
    (e : osip_contact_to_str fresh (some f) = some (i, some t)) : NoEol t := by
  unfold osip_contact_to_str at e
  walk e
  · grind
  · exact noEol_from_to_str hf h e

theorem noEol_viaParamsStr (ps : List Param) : ∀ {len n : Nat} {b r : Str}, viaParamsStr ps len b = some (r, n) → ParamsNoEol ps → NoEol b → NoEol r := by
  induction ps with
  | nil => intro len n b r h _ hb; cases h; exact hb
  | cons p ps ih =>
    intro len n b r h hp hb
    unfold viaParamsStr at h
    walk h <;> grind

theorem noEol_via_to_str {v : Via} (h : v.NoEol) {i : Int} {t : Str} (e : osip_via_to_str (some v) = some (i, some t)) : NoEol t := by
  obtain ⟨h1, h2, h3, h4, h5, h6⟩ := h
  have l1 : NoEol "SIP/".toList := by decide
  have l2 : NoEol " (".toList := by decide
  have l3 : NoEol "]:".toList := by decide
  unfold osip_via_to_str viaTailStr at e
  walk e <;> grind [noEol_viaParamsStr]

theorem noEol_cseq_to_str {c : CSeq} (h : NoEolO c.number ∧ NoEolO c.method) {i : Int} {t : Str}
    (e : osip_cseq_to_str (some c) = some (i, some t)) : NoEol t := by
  unfold osip_cseq_to_str at e
  walk e <;> grind

theorem noEol_call_id_to_str {c : CallId} (h : NoEolO c.number ∧ NoEolO c.host) {i : Int} {t : Str}
    (e : osip_call_id_to_str (some c) = some (i, some t)) : NoEol t := by
  unfold osip_call_id_to_str at e
  walk e <;> grind

theorem noEol_mediaParamsStr (ps : List Param) : ∀ {len : Nat} {b r : Str} {i : Int}, mediaParamsStr ps len b = some (i, some r) → ParamsNoEol ps →
    NoEol b → NoEol r := by
  induction ps with
  | nil => intro len b r i h _ hb; cases h; exact hb
  | cons p ps ih =>
    intro len b r i h hp hb
    unfold mediaParamsStr at h
    walk h <;> grind

theorem noEol_content_type_to_str {x : MediaType} (h : NoEolO x.type ∧ NoEolO x.subtype ∧ ParamsNoEol x.gen_params) {i : Int} {t : Str}
    (e : osip_content_type_to_str (some x) = some (i, some t)) : NoEol t := by
  unfold osip_content_type_to_str at e
  walk e <;> grind [noEol_mediaParamsStr]

theorem noEol_accept_to_str {x : MediaType} (h : NoEolO x.type ∧ NoEolO x.subtype ∧ ParamsNoEol x.gen_params) {i : Int} {t : Str}
    (e : osip_accept_to_str (some x) = some (i, some t)) : NoEol t := by
  unfold osip_accept_to_str at e
  walk e <;> grind [noEol_mediaParamsStr]

theorem noEol_entryParamsStr (ps : List Param) : ∀ {len : Nat} {b r : Str}, entryParamsStr ps len b = some r → ParamsNoEol ps → NoEol b → NoEol r := by
  induction ps with
  | nil => intro len b r h _ hb; cases h; exact hb
  | cons p ps ih =>
    intro len b r h hp hb
    unfold entryParamsStr at h
    walk h <;> grind

theorem noEol_entry_to_str {x : ListEntry} (h : NoEolO x.element ∧ ParamsNoEol x.gen_params) {i : Int} {t : Str}
    (e : osip_entry_to_str (some x) = some (i, some t)) : NoEol t := by
  unfold osip_entry_to_str at e
  walk e <;> grind [noEol_entryParamsStr]

theorem noEol_content_length_to_str {x : Option Str} (h : NoEolO x) {i : Int} {t : Str}
    (e : osip_content_length_to_str (some x) = some (i, some t)) : NoEol t := by
  unfold osip_content_length_to_str at e
  walk e <;> grind

/-! ## Authentication -/

theorem noEol_wwwAppend {F : Fields} (hF : F.NoEol) {len : Nat} (l : List (Str × Str)) : ∀ {b r : Str}, wwwAppend F len l b = some r →
    (∀ x ∈ l, NoEol x.2) → NoEol b → NoEol r := by
  induction l with
  | nil => intro b r h _ hb; cases h; exact hb
  | cons x l ih =>
    intro b r h hl hb
    obtain ⟨n, t⟩ := x
    have hn := hF n
    have ht : NoEol t := hl (n, t) (by simp)
    have hl' : ∀ x ∈ l, NoEol x.2 := fun x hx => hl x (by simp [hx])
    unfold wwwAppend at h
    walk h <;> grind

theorem noEol_sepAppend {F : Fields} (hF : F.NoEol) {len : Nat} {sep : Str} (hs : NoEol sep) (l : List (Str × Str)) : ∀ {first : Bool} {b r : Str},
    sepAppend F len sep l first b = some r → (∀ x ∈ l, NoEol x.2) → NoEol b → NoEol r := by
  induction l with
  | nil => intro first b r h _ hb; cases h; exact hb
  | cons x l ih =>
    intro first b r h hl hb
    obtain ⟨n, t⟩ := x
    have hn := hF n
    have ht : NoEol t := hl (n, t) (by simp)
    have hl' : ∀ x ∈ l, NoEol x.2 := fun x hx => hl x (by simp [hx])
    unfold sepAppend at h
    walk h <;> grind

theorem noEol_set {b : List Char} (h : NoEol b) (n : Nat) {c : Char} (hc : c ≠ '\r' ∧ c ≠ '\n') : NoEol (b.set n c) := by
  intro x hx
  rcases List.mem_or_eq_of_mem_set hx with hx | rfl
  · exact h x hx
  · exact hc

theorem noEol_www_to_str {ty : Option Str} {F : Fields} (h : NoEolO ty ∧ F.NoEol) {i : Int} {t : Str}
    (e : osip_www_authenticate_to_str ty F = some (i, some t)) : NoEol t := by
  have hl : ∀ x ∈ wwwTexts, NoEol x.2 := by decide
  unfold osip_www_authenticate_to_str at e
  simp only at e
  split at e
  · cases e
  · simp only [Option.bind_eq_bind, Option.bind_eq_some_iff, Option.pure_def, Option.some.injEq, Prod.mk.injEq] at e
    obtain ⟨b1, h1, b2, h2, -, rfl⟩ := e
    have g := noEol_wwwAppend h.2 _ h2 hl (noEol_put h1 (by simp) (by simpa using h.1))
    split
    · split
      · exact noEol_set g _ (by decide)
      · exact g
    · exact g

theorem noEol_authorization_to_str {ty : Option Str} {F : Fields} (h : NoEolO ty ∧ F.NoEol) {i : Int} {t : Str}
    (e : osip_authorization_to_str ty F = some (i, some t)) : NoEol t := by
  have hl : ∀ x ∈ authTexts, NoEol x.2 := by decide
  have hs : NoEol ",".toList := by decide
  unfold osip_authorization_to_str at e
  simp only at e
  split at e
  · cases e
  · simp only [Option.bind_eq_bind, Option.bind_eq_some_iff, Option.pure_def, Option.some.injEq, Prod.mk.injEq] at e
    obtain ⟨b1, h1, b2, h2, -, rfl⟩ := e
    exact noEol_sepAppend h.2 hs _ h2 hl (noEol_put h1 (by simp) (by simpa using h.1))

theorem noEol_info_to_str {ty : Option Str} {F : Fields} (h : NoEolO ty ∧ F.NoEol) {i : Int} {t : Str}
    (e : osip_authentication_info_to_str ty F = some (i, some t)) : NoEol t := by
  have hl : ∀ x ∈ infoTexts, NoEol x.2 := by decide
  have hs : NoEol ", ".toList := by decide
  have h1 : NoEol " ".toList := by decide
  unfold osip_authentication_info_to_str at e
  cases ty <;> simp only [Option.bind_eq_bind, Option.pure_def] at e <;> split at e
  · cases e
  · simp only [Option.bind_eq_some_iff, Option.some.injEq, Prod.mk.injEq] at e
    obtain ⟨b1, h2, b2, h3, -, rfl⟩ := e
    cases h2
    exact noEol_sepAppend h.2 hs _ h3 hl (by simp)
  · cases e
  · simp only [Option.bind_eq_some_iff, Option.some.injEq, Prod.mk.injEq] at e
    obtain ⟨b1, h2, b2, h3, -, rfl⟩ := e
    exact noEol_sepAppend h.2 hs _ h3 hl (noEol_put h2 (by simp) (by grind))

/-- **Any header** without line ends is written without line ends. -/
theorem noEol_headerToStr {fresh : Nat → Buf} (hf : ∀ n, (fresh n).length = n) {k : Setter} {x : HeaderVal} (h : x.NoEol) {i : Int} {t : Str}
    (e : headerToStr fresh k x = some (i, some t)) : NoEol t := by
  unfold headerToStr at e
  cases x with
  | via v => exact noEol_via_to_str h e
  | addr f =>
    simp only at e
    split at e
    · exact noEol_contact_to_str hf h e
    · exact noEol_from_to_str hf h e
  | callId c => exact noEol_call_id_to_str h e
  | cseq c => exact noEol_cseq_to_str h e
  | auth ty F =>
    simp only at e
    split at e
    · exact noEol_authorization_to_str h e
    · split at e
      · exact noEol_www_to_str h e
      · exact noEol_info_to_str h e
  | entry x => exact noEol_entry_to_str h e
  | media ct =>
    simp only at e
    split at e
    · exact noEol_accept_to_str h e
    · exact noEol_content_type_to_str h e
  | value v => exact noEol_content_length_to_str h e

theorem noEol_header_to_str {x : Header} (h : NoEolO x.hname ∧ NoEolO x.hvalue) {i : Int} {t : Str}
    (e : osip_header_to_str (some x) = some (i, some t)) : NoEol t := by
  obtain ⟨h1, h2⟩ := h
  unfold osip_header_to_str at e
  split at e
  · rename_i n v hx
    cases hx
    simp only [Option.bind_eq_bind, Option.bind_eq_some_iff] at e
    obtain ⟨s, hs, e⟩ := e
    have g : NoEol s := by
      refine noEol_putn hs (by simp) ?_
      have : NoEol (v.getD []) := by cases v <;> simp_all
      simp_all
    have key : ∀ c : Char, (c ≠ '\r' ∧ c ≠ '\n') → (if 'a' ≤ c ∧ c ≤ 'z' then Char.ofNat (c.toNat - 32) else c) ≠ '\r' ∧
        (if 'a' ≤ c ∧ c ≤ 'z' then Char.ofNat (c.toNat - 32) else c) ≠ '\n' := by
      intro c hc
      split
      · rename_i hz
        have h3 : 97 ≤ c.toNat := hz.1
        exact ofNat_noEol (by omega)
      · exact hc
    cases s with
    | nil => cases e; exact g
    | cons c s =>
      cases e
      rw [noEol_cons] at g ⊢
      exact ⟨key c g.1, g.2⟩
  · cases e

end Osip
