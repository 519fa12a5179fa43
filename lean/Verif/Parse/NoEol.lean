import Verif.Parse.PropsWrite

/-!
# Parsed headers have no line ends in them

A string without CR and LF stays one when it is cut by the pointers of `Verif/Parse/Ptr.lean`, and so do the parts of a header
that a `…_parse` function makes of it. Lemmas for `Verif/Parse/PropsInject.lean`.
-/

set_option autoImplicit false

namespace Osip

/-- No carriage return and no line feed. -/
def NoEol (s : List Char) : Prop := ∀ c ∈ s, c ≠ '\r' ∧ c ≠ '\n'

instance : DecidablePred NoEol := fun s => inferInstanceAs (Decidable (∀ c ∈ s, c ≠ '\r' ∧ c ≠ '\n'))

@[grind =, simp] theorem noEol_nil : NoEol [] ↔ True := by simp [NoEol]

@[grind =, simp] theorem noEol_cons {c : Char} {s : List Char} : NoEol (c :: s) ↔ (c ≠ '\r' ∧ c ≠ '\n') ∧ NoEol s := by simp [NoEol]

@[grind =, simp] theorem noEol_append {a b : List Char} : NoEol (a ++ b) ↔ NoEol a ∧ NoEol b := by
  simp only [NoEol, List.mem_append]
  exact ⟨fun h => ⟨fun c hc => h c (.inl hc), fun c hc => h c (.inr hc)⟩, fun h c hc => hc.elim (h.1 c) (h.2 c)⟩

theorem NoEol.of_subset {a b : List Char} (h : NoEol b) (hs : ∀ c ∈ a, c ∈ b) : NoEol a := fun c hc => h c (hs c hc)

theorem noEol_drop {p : List Char} (n : Nat) (h : NoEol p) : NoEol (p.drop n) := h.of_subset fun _ => List.mem_of_mem_drop

theorem noEol_take {p : List Char} (n : Nat) (h : NoEol p) : NoEol (p.take n) := h.of_subset fun _ => List.mem_of_mem_take

theorem noEol_dropWhile {p : List Char} (f : Char → Bool) (h : NoEol p) : NoEol (p.dropWhile f) :=
  h.of_subset fun _ hc => (List.dropWhile_suffix f).mem hc

theorem noEol_takeWhile {p : List Char} (f : Char → Bool) (h : NoEol p) : NoEol (p.takeWhile f) :=
  h.of_subset fun _ hc => (List.takeWhile_prefix f).mem hc

theorem noEol_trim {s : Str} (h : NoEol s) : NoEol (trim s) := by
  unfold trim
  intro c hc
  rw [List.mem_reverse] at hc
  have := (List.dropWhile_suffix _).mem hc
  rw [List.mem_reverse] at this
  exact h c ((List.dropWhile_suffix _).mem this)

theorem noEol_buf {s : Str} (h : NoEol s) : NoEol (Str.buf s) := by
  have : NoEol [NUL] := by decide
  simp [Str.buf, h, this]

theorem noEol_cbuf {s : Str} (h : NoEol s) : NoEol (cbuf s) := noEol_buf h

/-- All the ways in which a do-block can give a result. -/
macro "walk " h:ident : tactic =>
  `(tactic| ((try simp only [Option.bind_eq_bind, Option.bind_eq_some_iff, Option.pure_def, Option.some.injEq, Prod.mk.injEq, reduceCtorEq, false_and, and_false] at $h:ident)
             <;> (repeat' first
             | contradiction
             | (obtain ⟨_, _, $h:ident⟩ := $h:ident)
             | (split at $h:ident)
             | (simp only [Option.bind_eq_bind, Option.bind_eq_some_iff, Option.pure_def, Option.some.injEq, Prod.mk.injEq, Except.ok.injEq, Except.error.injEq, reduceCtorEq, false_and, and_false] at $h:ident))))

/-! ## Pointers -/

theorem noEol_cstrchr {c : Char} {p q : List Char} (h : cstrchr c p = some (some q)) (hp : NoEol p) : NoEol q := by
  induction p with
  | nil => cases h
  | cons d t ih =>
    unfold cstrchr at h
    split at h
    · cases h; exact hp
    · split at h
      · cases h
      · exact ih h (noEol_cons.1 hp).2

theorem noEol_cstr {p : List Char} {s : Str} (h : cstr p = some s) (hp : NoEol p) : NoEol s := by
  unfold cstr at h
  split at h
  · cases h; exact noEol_takeWhile _ hp
  · cases h

theorem noEol_clrncpy {p : List Char} {n : Int} {t : Str} (h : clrncpy p n = some t) (hp : NoEol p) : NoEol t := by
  unfold clrncpy at h
  simp only [Option.bind_eq_bind, Option.bind_eq_some_iff] at h
  obtain ⟨s, hs, h⟩ := h
  have := noEol_cstr hs hp
  split at h
  · cases h; exact noEol_trim (noEol_take _ this)
  · split at h
    · cases h; exact noEol_dropWhile _ this
    · cases h

theorem noEol_strncpy {p : List Char} {n : Int} {t : Str} (h : strncpy p n = some t) (hp : NoEol p) : NoEol t := by
  unfold strncpy at h
  simp only [Option.bind_eq_bind, Option.bind_eq_some_iff] at h
  obtain ⟨s, hs, h⟩ := h
  have := noEol_cstr hs hp
  split at h
  · cases h; exact noEol_take _ this
  · cases h

theorem noEol_skipChars {cs : List Char} {p q : List Char} (h : skipChars cs p = some q) (hp : NoEol p) : NoEol q := by
  induction p with
  | nil => cases h
  | cons d t ih =>
    unfold skipChars at h
    split at h
    · exact ih h (noEol_cons.1 hp).2
    · cases h; exact hp

theorem noEol_cquote_find {p q : List Char} (h : cquote_find p = some (some q)) (hp : NoEol p) : NoEol q := by
  unfold cquote_find at h
  simp only [Option.bind_eq_bind, Option.bind_eq_some_iff] at h
  obtain ⟨o, -, h⟩ := h
  cases o with
  | none => cases h
  | some i => cases h; exact noEol_drop _ hp

theorem noEol_next_separator {p q : List Char} {a b : Char} (h : next_separator p a b = some (some q)) (hp : NoEol p) : NoEol q := by
  unfold next_separator at h
  walk h <;> grind [→ noEol_cstrchr]

grind_pattern noEol_drop => NoEol (p.drop n)
grind_pattern noEol_take => NoEol (p.take n)
grind_pattern noEol_trim => NoEol (trim s)
grind_pattern noEol_buf => NoEol (Str.buf s)
grind_pattern noEol_cbuf => NoEol (cbuf s)
attribute [grind →] noEol_cstrchr noEol_cstr noEol_clrncpy noEol_strncpy noEol_skipChars noEol_cquote_find noEol_next_separator

/-- A pointer that may be null. -/
def NoEolO (o : Option (List Char)) : Prop := ∀ s, o = some s → NoEol s

@[grind =, simp] theorem noEolO_none : NoEolO none ↔ True := by simp [NoEolO]
@[grind =, simp] theorem noEolO_some {s : List Char} : NoEolO (some s) ↔ NoEol s := by simp [NoEolO]

theorem noEolO_cstrchr {c : Char} {p : List Char} {o : Option (List Char)} (h : cstrchr c p = some o) (hp : NoEol p) : NoEolO o := by
  intro q hq
  subst hq
  exact noEol_cstrchr h hp

attribute [grind →] noEolO_cstrchr

/-! ## Parameters -/

/-- Name and value of a parameter. -/
def Param.NoEol (p : Param) : Prop := Osip.NoEol p.gname ∧ NoEolO p.gvalue

/-- All parameters. -/
def ParamsNoEol (ps : List Param) : Prop := ∀ p ∈ ps, p.NoEol

@[grind =, simp] theorem params_nil : ParamsNoEol [] ↔ True := by simp [ParamsNoEol]

@[grind =] theorem params_cons {p : Param} {ps : List Param} : ParamsNoEol (p :: ps) ↔ (NoEol p.gname ∧ NoEolO p.gvalue) ∧ ParamsNoEol ps := by
  simp [ParamsNoEol, Param.NoEol]

theorem noEol_param_add {l : List Param} {n : Str} {v : Option Str} (hl : ParamsNoEol l) (hn : NoEol n) (hv : NoEolO v) :
    ParamsNoEol (param_add l n v) := by
  intro p hp
  unfold param_add at hp
  rcases List.mem_append.1 hp with hp | hp
  · exact hl p hp
  · rw [List.mem_singleton] at hp
    subst hp
    refine ⟨noEol_trim hn, ?_⟩
    intro s hs
    cases v with
    | none => cases hs
    | some v => cases hs; exact noEol_trim (hv v rfl)

theorem noEol_paramSeps {p : List Char} {e c : Option (List Char)} (h : paramSeps p = some (e, c)) (hp : NoEol p) : NoEolO e ∧ NoEolO c := by
  unfold paramSeps at h
  have h1 : ∀ q, next_separator (p.drop 1) '=' ';' = some (some q) → NoEol q := fun q hq => noEol_next_separator hq (noEol_drop _ hp)
  have h2 : ∀ q, cstrchr ';' (p.drop 1) = some (some q) → NoEol q := fun q hq => noEol_cstrchr hq (noEol_drop _ hp)
  walk h <;> grind [NoEolO]

theorem noEol_paramValue {e c : List Char} {v : Option Str} (h : paramValue e c = some (.ok v)) (he : NoEol e) : NoEolO v := by
  unfold paramValue at h
  walk h <;> grind

theorem noEol_parseallLoop (n : Nat) : ∀ {acc : List Param} {p : List Char} {i : Int} {ps : List Param},
    parseallLoop n acc p = some (i, ps) → ParamsNoEol acc → NoEol p → ParamsNoEol ps := by
  induction n with
  | zero => intro _ _ _ _ h; cases h
  | succ n ih =>
    intro acc p i ps h ha hp
    unfold parseallLoop at h
    simp only [Option.bind_eq_bind, Option.bind_eq_some_iff] at h
    obtain ⟨⟨e, c⟩, hs, h⟩ := h
    obtain ⟨he, hc⟩ := noEol_paramSeps hs hp
    walk h <;> grind [noEol_param_add, → noEol_paramValue]

theorem noEol_parseall {acc : List Param} {p : List Char} {i : Int} {ps : List Param} (h : generic_param_parseall acc p = some (i, ps))
    (ha : ParamsNoEol acc) (hp : NoEol p) : ParamsNoEol ps := noEol_parseallLoop _ h ha hp

attribute [grind →] noEol_parseall

/-! ## Small headers -/

theorem noEol_cseq {p : List Char} {i : Int} {x : CSeq} (h : osip_cseq_parse p = some (i, x)) (hp : NoEol p) :
    NoEolO x.number ∧ NoEolO x.method := by
  unfold osip_cseq_parse at h
  walk h <;> grind

theorem noEol_call_id {p : List Char} {i : Int} {x : CallId} (h : osip_call_id_parse p = some (i, x)) (hp : NoEol p) :
    NoEolO x.number ∧ NoEolO x.host := by
  unfold osip_call_id_parse at h
  walk h <;> grind

theorem noEol_content_length {p : Option (List Char)} {i : Int} {x : Option Str} (h : osip_content_length_parse p = some (i, x))
    (hp : NoEolO p) : NoEolO x := by
  unfold osip_content_length_parse at h
  walk h <;> grind

theorem noEol_optParams {p : Option (List Char)} {acc ps : List Param} {i : Int} (h : optParams acc p = some (i, ps)) (ha : ParamsNoEol acc)
    (hp : NoEolO p) : ParamsNoEol ps := by
  unfold optParams at h
  walk h <;> grind

theorem noEol_contentTypeNames {ps : List Param} {h s p : List Char} {i : Int} {x : MediaType} (e : contentTypeNames ps h s p = some (i, x))
    (hps : ParamsNoEol ps) (hh : NoEol h) (hs : NoEol s) : NoEolO x.type ∧ NoEolO x.subtype ∧ ParamsNoEol x.gen_params := by
  unfold contentTypeNames at e
  walk e <;> grind

theorem noEol_content_type {p : Option (List Char)} {i : Int} {x : MediaType} (h : osip_content_type_parse p = some (i, x))
    (hp : NoEolO p) : NoEolO x.type ∧ NoEolO x.subtype ∧ ParamsNoEol x.gen_params := by
  unfold osip_content_type_parse at h
  walk h <;> grind [→ noEol_optParams, → noEol_contentTypeNames]

theorem noEol_entryElement {ps : List Param} {h p : List Char} {i : Int} {x : ListEntry} (e : entryElement ps h p = some (i, x))
    (hps : ParamsNoEol ps) (hh : NoEol h) : NoEolO x.element ∧ ParamsNoEol x.gen_params := by
  unfold entryElement at e
  walk e <;> grind

theorem noEol_entryRest {h : List Char} {p : Option (List Char)} {i : Int} {x : ListEntry} (e : entryRest h p = some (i, x))
    (hh : NoEol h) (hp : NoEolO p) : NoEolO x.element ∧ ParamsNoEol x.gen_params := by
  unfold entryRest at e
  walk e <;> grind [→ noEol_optParams, → noEol_entryElement]

theorem noEol_accept_encoding {p : List Char} {i : Int} {x : ListEntry} (e : osip_accept_encoding_parse p = some (i, x))
    (hp : NoEol p) : NoEolO x.element ∧ ParamsNoEol x.gen_params := by
  unfold osip_accept_encoding_parse at e
  walk e
  exact noEol_entryRest e hp (by grind [NoEolO])

theorem noEol_call_info {p : List Char} {i : Int} {x : ListEntry} (e : osip_call_info_parse p = some (i, x))
    (hp : NoEol p) : NoEolO x.element ∧ ParamsNoEol x.gen_params := by
  unfold osip_call_info_parse at e
  walk e <;> grind [→ noEol_entryRest, NoEolO]

theorem noEol_set_header {n : List Char} {v : Option (List Char)} {i : Int} {x : Header} (e : osip_message_set_header (some n) v = some (i, some x))
    (hn : NoEol n) (hv : NoEolO v) : NoEolO x.hname ∧ NoEolO x.hvalue := by
  unfold osip_message_set_header at e
  walk e <;> grind

/-! ## Via -/

/-- All parts of a Via. -/
def Via.NoEol (v : Via) : Prop :=
  NoEolO v.version ∧ NoEolO v.protocol ∧ NoEolO v.host ∧ NoEolO v.port ∧ NoEolO v.comment ∧ ParamsNoEol v.via_params

theorem noEol_viaSpaces {p q : List Char} (h : viaSpaces p = some (some q)) (hp : NoEol p) : NoEol q := by
  induction p with
  | nil => cases h
  | cons d t ih =>
    unfold viaSpaces at h
    walk h <;> grind

theorem noEol_viaHost {p q : List Char} (h : viaHost p = some (some q)) (hp : NoEol p) : NoEol q := by
  unfold viaHost at h
  walk h <;> grind [→ noEol_viaSpaces]

theorem noEol_viaComment {p q : List Char} {c : Option Str} (h : viaComment p = some (.ok (c, q))) (hp : NoEol p) : NoEolO c ∧ NoEol q := by
  unfold viaComment at h
  walk h <;> grind

theorem noEol_ifBefore {p : Option (List Char)} {q r : List Char} (h : ifBefore p q = some r) (hp : NoEolO p) : NoEol r := by
  unfold ifBefore at h
  grind

theorem noEol_viaV6 {v w : Via} {h p : List Char} {o q : Option (List Char)} (e : viaV6 v h p o = some (.ok (w, q))) (hv : v.NoEol)
    (hh : NoEol h) (ho : NoEolO o) : w.NoEol ∧ NoEolO q := by
  unfold viaV6 at e
  walk e <;> grind [Via.NoEol, NoEolO]

theorem noEolO_ifBefore {p : Option (List Char)} {q : List Char} (hp : NoEolO p) : NoEolO (ifBefore p q) :=
  fun _ h => noEol_ifBefore h hp

grind_pattern noEolO_ifBefore => NoEolO (ifBefore p q)

theorem noEol_viaPort {v w : Via} {p q : List Char} {o : Option (List Char)} (e : viaPort v p o = some (.ok (w, q))) (hv : v.NoEol)
    (hp : NoEol p) (ho : NoEolO o) : w.NoEol ∧ NoEol q := by
  unfold viaPort at e
  walk e <;> grind [Via.NoEol, noEol_ifBefore]

theorem noEol_viaPort_err {v w : Via} {p : List Char} {o : Option (List Char)} {i : Int} (e : viaPort v p o = some (.error (i, w)))
    (hv : v.NoEol) (ho : NoEolO o) : w.NoEol := by
  unfold viaPort at e
  walk e <;> grind [Via.NoEol, noEol_ifBefore]

theorem noEol_via_host {v : Via} {h : Str} (hv : v.NoEol) (hh : NoEol h) : Via.NoEol { v with host := some h } := by
  grind [Via.NoEol]

theorem noEol_viaHostPort {v w : Via} {h p : List Char} {i : Int} (e : viaHostPort v h p = some (i, w)) (hv : v.NoEol)
    (hh : NoEol h) (hp : NoEol p) : w.NoEol := by
  unfold viaHostPort at e
  walk e <;> grind [noEol_via_host, → noEol_viaV6, → noEol_viaPort, → noEol_viaPort_err]

theorem noEol_via {p : List Char} {i : Int} {v : Via} (e : osip_via_parse p = some (i, v)) (hp : NoEol p) : v.NoEol := by
  unfold osip_via_parse at e
  walk e <;> grind [Via.NoEol, → noEol_viaHost, → noEol_viaComment, → noEol_viaHostPort]

/-! ## URIs -/

/-- The parts of a URI that are written as they are; the others are escaped. -/
def Uri.NoEol (u : Uri) : Prop := NoEolO u.scheme ∧ NoEolO u.host ∧ NoEolO u.port ∧ NoEolO u.string

theorem noEol_uriPassword {sscanf : Str → Option Nat} {u w : Uri} {a b q : List Char} (e : uriPassword sscanf u a b = some (.ok (w, q)))
    (hu : u.NoEol) : w.NoEol := by
  unfold uriPassword at e
  walk e <;> grind [Uri.NoEol]

theorem noEol_uriPassword_err {sscanf : Str → Option Nat} {u w : Uri} {a b : List Char} {i : Int}
    (e : uriPassword sscanf u a b = some (.error (i, w))) (hu : u.NoEol) : w.NoEol := by
  unfold uriPassword at e
  walk e <;> grind [Uri.NoEol]

theorem noEol_uriUser {sscanf : Str → Option Nat} {u w : Uri} {a b q : List Char} (e : uriUser sscanf u a b = some (.ok (w, q)))
    (hu : u.NoEol) (ha : NoEol a) (hb : NoEol b) : w.NoEol ∧ NoEol q := by
  unfold uriUser at e
  walk e <;> grind [Uri.NoEol, → noEol_uriPassword]

theorem noEol_uriUser_err {sscanf : Str → Option Nat} {u w : Uri} {a b : List Char} {i : Int}
    (e : uriUser sscanf u a b = some (.error (i, w))) (hu : u.NoEol) : w.NoEol := by
  unfold uriUser at e
  walk e <;> grind [Uri.NoEol, → noEol_uriPassword, → noEol_uriPassword_err]

theorem noEol_uriTail {sscanf : Str → Option Nat} {u w : Uri} {h q : List Char} (e : uriTail sscanf u h = some (.ok (w, q)))
    (hu : u.NoEol) : w.NoEol := by
  unfold uriTail at e
  walk e <;> grind [Uri.NoEol]

theorem noEol_uriTail_err {sscanf : Str → Option Nat} {u w : Uri} {h : List Char} {i : Int} (e : uriTail sscanf u h = some (.error (i, w)))
    (hu : u.NoEol) : w.NoEol := by
  unfold uriTail at e
  walk e <;> grind [Uri.NoEol]

theorem noEol_uriPort {u w : Uri} {h p : List Char} {n : Nat} (e : uriPort u h p = some (.ok (w, n))) (hu : u.NoEol) (hh : NoEol h) :
    w.NoEol := by
  unfold uriPort at e
  walk e <;> grind [Uri.NoEol]

theorem noEol_uriPort_err {u w : Uri} {h p : List Char} {i : Int} (e : uriPort u h p = some (.error (i, w))) (hu : u.NoEol) : w.NoEol := by
  unfold uriPort at e
  walk e <;> grind [Uri.NoEol]

theorem noEol_uriHost {u w : Uri} {h : List Char} {n : Nat} {i : Int} (e : uriHost u h n = some (i, w)) (hu : u.NoEol) (hh : NoEol h) :
    w.NoEol := by
  unfold uriHost at e
  walk e <;> grind [Uri.NoEol]

theorem noEol_uriSip {sscanf : Str → Option Nat} {u w : Uri} {a b : List Char} {i : Int} (e : uriSip sscanf u a b = some (i, w))
    (hu : u.NoEol) (ha : NoEol a) (hb : NoEol b) : w.NoEol := by
  unfold uriSip at e
  walk e <;> grind [→ noEol_uriUser, → noEol_uriUser_err, → noEol_uriTail, → noEol_uriTail_err, → noEol_uriPort, → noEol_uriPort_err, → noEol_uriHost]

theorem noEol_uri {sscanf : Str → Option Nat} {p : List Char} {i : Int} {u : Uri} (e : osip_uri_parse sscanf p = some (i, u))
    (hp : NoEol p) : u.NoEol := by
  unfold osip_uri_parse at e
  walk e <;> grind [Uri.NoEol, → noEol_uriSip]

/-! ## From -/

/-- Display name, URI and parameters. -/
def From.NoEol (f : From) : Prop := NoEolO f.displayname ∧ (∀ u, f.url = some u → u.NoEol) ∧ ParamsNoEol f.gen_params

theorem noEol_skipName {p q : List Char} (h : skipName p = some q) (hp : NoEol p) : NoEol q := by
  induction p with
  | nil => cases h
  | cons d t ih =>
    unfold skipName at h
    walk h <;> grind

theorem noEol_fromRest {sscanf : Str → Option Nat} {f g : From} {u : List Char} {n i : Int} {o : Option (List Char)}
    (e : fromRest sscanf f u n o = some (i, g)) (hf : f.NoEol) (hu : NoEol u) (ho : NoEolO o) : g.NoEol := by
  unfold fromRest fromGen at e
  walk e <;> grind [From.NoEol, → noEol_uri]

theorem noEol_fromUrl {sscanf : Str → Option Nat} {f g : From} {u : List Char} {i : Int}
    (e : fromUrl sscanf f u = some (i, g)) (hf : f.NoEol) (hu : NoEol u) : g.NoEol := by
  unfold fromUrl at e
  walk e <;> grind [→ noEol_fromRest, NoEolO]

theorem noEol_from {sscanf : Str → Option Nat} {p : List Char} {i : Int} {f : From} (e : osip_from_parse sscanf p = some (i, f))
    (hp : NoEol p) : f.NoEol := by
  unfold osip_from_parse fromQuoted at e
  walk e <;> grind [From.NoEol, → noEol_fromUrl, → noEol_skipName]

theorem noEol_contact {sscanf : Str → Option Nat} {p : List Char} {i : Int} {f : From} (e : osip_contact_parse sscanf p = some (i, f))
    (hp : NoEol p) : f.NoEol := by
  unfold osip_contact_parse at e
  walk e <;> grind [From.NoEol, → noEol_from]

/-! ## Authentication -/

/-- All directives. -/
def Fields.NoEol (F : Fields) : Prop := ∀ n, NoEolO (F n)

theorem noEol_nextElement {p q : List Char} (e : nextElement p = some (some q)) (hp : NoEol p) : NoEol q := by
  unfold nextElement at e
  walk e <;> grind

theorem noEol_quotedValue {p : List Char} {i : Int} {v : Option Str} {n : Option (List Char)} (e : quotedValue p = some (i, v, n))
    (hp : NoEol p) : NoEolO v ∧ NoEolO n := by
  unfold quotedValue at e
  walk e <;> grind [→ noEol_nextElement, NoEolO]

theorem noEol_quoted_set {nm : Str} {p : List Char} {i : Int} {w v : Option Str} {n : Option (List Char)}
    (e : quoted_string_set nm p w = some (i, v, n)) (hp : NoEol p) (hw : NoEolO w) : NoEolO v ∧ NoEolO n := by
  unfold quoted_string_set at e
  walk e <;> grind [→ noEol_quotedValue]

theorem noEol_tokenValue {b p : List Char} {i : Int} {v : Option Str} {n : Option (List Char)} (e : tokenValue b p = some (i, v, n))
    (hb : NoEol b) (hp : NoEol p) : NoEolO v ∧ NoEolO n := by
  unfold tokenValue at e
  rw [Option.bind_eq_bind, Option.bind_eq_some_iff] at e
  obtain ⟨z, hz, e⟩ := e
  have hz' : NoEol z := by
    walk hz <;> grind
  walk e <;> grind [→ noEol_nextElement, NoEolO]

theorem noEol_token_set {nm : Str} {p : List Char} {i : Int} {w v : Option Str} {n : Option (List Char)}
    (e : token_set nm p w = some (i, v, n)) (hp : NoEol p) (hw : NoEolO w) : NoEolO v ∧ NoEolO n := by
  unfold token_set at e
  walk e <;> grind [→ noEol_tokenValue]

theorem noEol_authSet {k : DirKind} {nm : Str} {p : List Char} {i : Int} {w v : Option Str} {n : Option (List Char)}
    (e : authSet k nm p w = some (i, v, n)) (hp : NoEol p) (hw : NoEolO w) : NoEolO v ∧ NoEolO n := by
  unfold authSet at e
  cases k
  · exact noEol_quoted_set e hp hw
  · exact noEol_token_set e hp hw

theorem noEol_fields_set {F : Fields} {n : Str} {v : Option Str} (hF : F.NoEol) (hv : NoEolO v) : (F.set n v).NoEol := by
  intro m
  unfold Fields.set
  split
  · exact hv
  · exact hF m

theorem noEol_authRound (T : List (DirKind × Str)) : ∀ {F G : Fields} {p : List Char} {ok : Bool} {r : Round},
    authRound T F p ok = some (G, r) → F.NoEol → NoEol p → G.NoEol ∧ ∀ q b, r = .go q b → NoEol q := by
  induction T with
  | nil => intro F G p ok r e hF hp; cases e; exact ⟨hF, by intro q b h; cases h; exact hp⟩
  | cons x T ih =>
    intro F G p ok r e hF hp
    obtain ⟨k, nm⟩ := x
    simp only [authRound, Option.bind_eq_bind, Option.bind_eq_some_iff] at e
    obtain ⟨⟨i, v, n⟩, h1, e⟩ := e
    obtain ⟨hv, hn⟩ := noEol_authSet h1 hp (hF nm)
    have hs := noEol_fields_set (n := nm) hF hv
    walk e <;> grind

theorem noEol_authBypass {p q : List Char} {b : Bool} (e : authBypass p = some (.go q b)) (hp : NoEol p) : NoEol q := by
  unfold authBypass at e
  walk e <;> grind

theorem noEol_authLoop (T : List (DirKind × Str)) (n : Nat) : ∀ {F G : Fields} {p : List Char} {i : Int},
    authLoop T n F p = some (i, G) → F.NoEol → NoEol p → G.NoEol := by
  induction n with
  | zero => intro _ _ _ _ e; cases e
  | succ n ih =>
    intro F G p i e hF hp
    simp only [authLoop, Option.bind_eq_bind, Option.bind_eq_some_iff] at e
    obtain ⟨⟨F1, r⟩, h1, e⟩ := e
    obtain ⟨h2, h3⟩ := noEol_authRound T h1 hF hp
    walk e <;> grind [→ noEol_authBypass]

theorem noEol_credentials {T : List (DirKind × Str)} {p : List Char} {i : Int} {t : Option Str} {F : Fields}
    (e : credentials_parse T p = some (i, t, F)) (hp : NoEol p) : NoEolO t ∧ F.NoEol := by
  have h0 : Fields.NoEol fun _ => none := fun _ => by simp
  unfold credentials_parse at e
  walk e <;> grind [→ noEol_authLoop]

theorem noEol_auth_info {p : List Char} {i : Int} {t : Option Str} {F : Fields}
    (e : osip_authentication_info_parse p = some (i, t, F)) (hp : NoEol p) : NoEolO t ∧ F.NoEol := by
  have h0 : Fields.NoEol fun _ => none := fun _ => by simp
  unfold osip_authentication_info_parse at e
  walk e <;> grind [→ noEol_authLoop]

/-! ## Any header -/

/-- The parts of a header, whatever it is. -/
def HeaderVal.NoEol : HeaderVal → Prop
  | .via v => v.NoEol
  | .addr f => f.NoEol
  | .callId c => NoEolO c.number ∧ NoEolO c.host
  | .cseq c => NoEolO c.number ∧ NoEolO c.method
  | .auth t F => NoEolO t ∧ F.NoEol
  | .entry e => NoEolO e.element ∧ ParamsNoEol e.gen_params
  | .media ct => NoEolO ct.type ∧ NoEolO ct.subtype ∧ ParamsNoEol ct.gen_params
  | .value v => NoEolO v

theorem noEol_parseHeader {sscanf : Str → Option Nat} {k : Setter} {p : Option (List Char)} {i : Int} {x : HeaderVal}
    (e : parseHeader sscanf k p = some (i, x)) (hp : NoEolO p) : x.NoEol := by
  unfold parseHeader at e
  split at e <;> simp only [Option.map_eq_some_iff, Option.bind_eq_some_iff, Prod.mk.injEq] at e
  · obtain ⟨⟨j, y⟩, h, -, rfl⟩ := e; exact noEol_content_type h hp
  · obtain ⟨⟨j, y⟩, h, -, rfl⟩ := e; exact noEol_content_type h hp
  · obtain ⟨⟨j, y⟩, h, -, rfl⟩ := e; exact noEol_content_length h hp
  · obtain ⟨⟨j, y⟩, h, -, rfl⟩ := e; exact noEol_content_length h hp
  · obtain ⟨⟨j, y⟩, h, -, rfl⟩ := e; exact noEol_content_length h hp
  · obtain ⟨⟨j, y⟩, h, -, rfl⟩ := e; exact noEol_content_length h hp
  all_goals obtain ⟨q, rfl, ⟨j, y⟩, h, -, rfl⟩ := e
  all_goals have hq : NoEol q := hp q rfl
  all_goals first
    | exact noEol_via h hq
    | exact noEol_from h hq
    | exact noEol_contact h hq
    | exact noEol_call_id h hq
    | exact noEol_cseq h hq
    | exact noEol_credentials h hq
    | exact noEol_auth_info h hq
    | exact noEol_accept_encoding h hq
    | exact noEol_call_info h hq

end Osip
