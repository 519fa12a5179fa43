import Verif.Parse.HeaderTable

/-!
# C44, C69: header-name lookup and the treatment of invalid headers
-/

set_option autoImplicit false

namespace Osip

/-! ## Specification -/

/-- The supported headers: name, parser, and whether the header is required to be valid. The compact
names are those of RFC 3261 section 7.3.3. -/
def supported : List (String × Setter × Bool) :=
  [("authorization", .authorization, false), ("call-id", .call_id, true), ("i", .call_id, true),
   ("contact", .contact, true), ("m", .contact, true), ("content-length", .content_length, true),
   ("l", .content_length, true), ("content-type", .content_type, true), ("c", .content_type, true),
   ("cseq", .cseq, true), ("from", .from, true), ("f", .from, true), ("mime-version", .mime_version, false),
   ("proxy-authenticate", .proxy_authenticate, false), ("proxy-authorization", .proxy_authorization, false),
   ("record-route", .record_route, false), ("route", .route, false), ("to", .to, true), ("t", .to, true),
   ("via", .via, true), ("v", .via, true), ("www-authenticate", .www_authenticate, false)]

/-- The headers supported in addition when the library is not compiled with `MINISIZE`. -/
def supportedFull : List (String × Setter × Bool) :=
  [("accept", .accept, false), ("accept-encoding", .accept_encoding, false),
   ("accept-language", .accept_language, false), ("alert-info", .alert_info, false), ("allow", .allow, false),
   ("authentication-info", .authentication_info, false), ("call-info", .call_info, false),
   ("content-encoding", .content_encoding, false), ("e", .content_encoding, false),
   ("error-info", .error_info, false),
   ("proxy-authentication-info", .proxy_authentication_info, false)]

/-- `n` is a supported name, read by `s`; `req` says whether an invalid value is an error. -/
def Supported (minisize : Bool) (n : Str) (s : Setter) (req : Bool) : Prop :=
  ∃ m : String, m.toList = n ∧ ((m, s, req) ∈ supported ∨ minisize = false ∧ (m, s, req) ∈ supportedFull)

/-! ## The table -/

def theTable (signed minisize : Bool) : List (Option Nat) := (parser_init signed minisize).getD []

theorem parser_init_ok (signed minisize : Bool) :
    parser_init signed minisize = some (theTable signed minisize) := by
  have : ∀ a b, (parser_init a b).isSome = true := by decide +kernel
  have h := this signed minisize
  unfold theTable
  cases hp : parser_init signed minisize with
  | none => rw [hp] at h; cases h
  | some t => rfl

theorem theTable_length (signed minisize : Bool) : (theTable signed minisize).length = HASH_TABLE_SIZE := by
  have : ∀ a b, (theTable a b).length = HASH_TABLE_SIZE := by decide +kernel
  exact this signed minisize

theorem theTable_range (signed minisize : Bool) :
    ∀ i, some i ∈ theTable signed minisize → i < (pconfig minisize).length := by
  have h : ∀ a b, (theTable a b).all (fun o => o.all (fun i => decide (i < (pconfig b).length))) = true := by
    decide +kernel
  intro i hi
  have := List.all_eq_true.1 (h signed minisize) _ hi
  simpa using this

theorem theTable_entries (signed minisize : Bool) {i : Nat} {e : Config} (he : (pconfig minisize)[i]? = some e) :
    (theTable signed minisize)[osip_hash signed e.hname % HASH_TABLE_SIZE]? = some (some i) := by
  have h : ∀ a b, ((pconfig b).zipIdx).all (fun (e, i) =>
      decide ((theTable a b)[osip_hash a e.hname % HASH_TABLE_SIZE]? = some (some i))) = true := by
    decide +kernel
  have hm : (e, i) ∈ (pconfig minisize).zipIdx := by
    rw [List.mk_mem_zipIdx_iff_getElem?]; exact he
  have := List.all_eq_true.1 (h signed minisize) _ hm
  simpa using this

theorem is_known_iff (signed minisize : Bool) (n : Str) :
    ∃ o, is_known_header signed minisize (theTable signed minisize) n = some o ∧
      ∀ i, o = some i ↔ ∃ e, (pconfig minisize)[i]? = some e ∧ e.hname = n := by
  have hlt : osip_hash signed n % HASH_TABLE_SIZE < (theTable signed minisize).length := by
    rw [theTable_length]; exact Nat.mod_lt _ (by decide)
  unfold is_known_header
  rw [List.getElem?_eq_getElem hlt]
  generalize hslot : (theTable signed minisize)[osip_hash signed n % HASH_TABLE_SIZE] = slot
  have hslot' : (theTable signed minisize)[osip_hash signed n % HASH_TABLE_SIZE]? = some slot := by
    rw [List.getElem?_eq_getElem hlt, hslot]
  cases slot with
  | none =>
    refine ⟨none, rfl, ?_⟩
    intro i
    constructor
    · intro h; cases h
    · rintro ⟨e, h1, rfl⟩
      rw [theTable_entries signed minisize h1] at hslot'
      cases hslot'
  | some j =>
    have hj : j < (pconfig minisize).length := theTable_range signed minisize j (by
      rw [← hslot]; exact List.getElem_mem hlt)
    simp only [List.getElem?_eq_getElem hj]
    refine ⟨_, rfl, ?_⟩
    intro i
    constructor
    · intro h
      split at h
      · next hn => cases h; exact ⟨_, List.getElem?_eq_getElem hj, hn⟩
      · cases h
    · rintro ⟨e, h1, rfl⟩
      rw [theTable_entries signed minisize h1] at hslot'
      cases hslot'
      rw [List.getElem?_eq_getElem hj] at h1
      cases h1
      simp

theorem pconfig_supported (minisize : Bool) :
    (∀ e ∈ pconfig minisize, Supported minisize e.hname e.setheader (!e.ignored_when_invalid)) ∧
    (∀ n s req, Supported minisize n s req → ∃ e ∈ pconfig minisize, e.hname = n ∧ e.setheader = s ∧
      e.ignored_when_invalid = !req) := by
  constructor
  · intro e he
    have h : ∀ b, (pconfig b).all (fun e => (supported.any (fun x => decide (x.1.toList = e.hname ∧ x.2.1 = e.setheader ∧ x.2.2 = !e.ignored_when_invalid))) ||
        (!b && supportedFull.any (fun x => decide (x.1.toList = e.hname ∧ x.2.1 = e.setheader ∧ x.2.2 = !e.ignored_when_invalid)))) = true := by
      decide +kernel
    have := List.all_eq_true.1 (h minisize) _ he
    simp only [Bool.or_eq_true, Bool.and_eq_true, List.any_eq_true, decide_eq_true_eq, Bool.not_eq_true'] at this
    rcases this with ⟨⟨m, s, r⟩, h1, h2, h3, h4⟩ | ⟨hb, ⟨m, s, r⟩, h1, h2, h3, h4⟩
    · exact ⟨m, h2, .inl (by simp at h3 h4; subst h3; subst h4; exact h1)⟩
    · exact ⟨m, h2, .inr ⟨hb, by simp at h3 h4; subst h3; subst h4; exact h1⟩⟩
  · rintro n s req ⟨m, rfl, h⟩
    have h1 : ∀ b, supported.all (fun x => (pconfig b).any (fun e => decide (e.hname = x.1.toList ∧ e.setheader = x.2.1 ∧ e.ignored_when_invalid = !x.2.2))) = true := by
      decide +kernel
    have h2 : supportedFull.all (fun x => (pconfig false).any (fun e => decide (e.hname = x.1.toList ∧ e.setheader = x.2.1 ∧ e.ignored_when_invalid = !x.2.2))) = true := by
      decide +kernel
    rcases h with h | ⟨rfl, h⟩
    · have := List.all_eq_true.1 (h1 minisize) _ h
      simp only [List.any_eq_true, decide_eq_true_eq] at this
      exact this
    · have := List.all_eq_true.1 h2 _ h
      simp only [List.any_eq_true, decide_eq_true_eq] at this
      exact this

theorem pconfig_unique (minisize : Bool) {e f : Config} (he : e ∈ pconfig minisize) (hf : f ∈ pconfig minisize)
    (h : e.hname = f.hname) : e = f := by
  have : ∀ b, (pconfig b).all (fun e => (pconfig b).all (fun f => decide (e.hname = f.hname → e = f))) = true := by
    decide +kernel
  have := List.all_eq_true.1 (List.all_eq_true.1 (this minisize) _ he) _ hf
  simp at this
  exact this.resolve_left (fun hn => hn h)

/-! ## Properties -/

/-- **C44**. `parser_init` succeeds, hence no two supported names share a slot, and afterwards for every
string the lookup stays inside its tables; it finds an entry exactly if the string is a supported
name, and then the entry has that name and its parser. -/
theorem c44_header_lookup (signed minisize : Bool) :
    ∃ t, parser_init signed minisize = some t ∧ ∀ n : Str, ∃ o,
      is_known_header signed minisize t n = some o ∧
      (o.isSome = true ↔ ∃ s req, Supported minisize n s req) ∧
      ∀ s req, Supported minisize n s req → ∃ i e, o = some i ∧ (pconfig minisize)[i]? = some e ∧
        e.hname = n ∧ e.setheader = s := by
  refine ⟨_, parser_init_ok signed minisize, fun n => ?_⟩
  obtain ⟨o, h1, h2⟩ := is_known_iff signed minisize n
  refine ⟨o, h1, ?_, ?_⟩
  · constructor
    · intro h
      obtain ⟨i, rfl⟩ := Option.isSome_iff_exists.1 h
      obtain ⟨e, he, rfl⟩ := (h2 i).1 rfl
      exact ⟨_, _, (pconfig_supported minisize).1 e (List.mem_of_getElem? he)⟩
    · rintro ⟨s, req, h⟩
      obtain ⟨e, he, hn, _⟩ := (pconfig_supported minisize).2 _ _ _ h
      obtain ⟨i, hi, rfl⟩ := List.getElem_of_mem he
      rw [(h2 i).2 ⟨_, List.getElem?_eq_getElem hi, hn⟩]; rfl
  · intro s req h
    obtain ⟨e, he, hn, hs, _⟩ := (pconfig_supported minisize).2 _ _ _ h
    obtain ⟨i, hi, rfl⟩ := List.getElem_of_mem he
    exact ⟨i, _, (h2 i).2 ⟨_, List.getElem?_eq_getElem hi, hn⟩, List.getElem?_eq_getElem hi, hn, hs⟩

/-- The hash slots of distinct supported names differ. -/
theorem c44_no_clash (signed minisize : Bool) {n m : Str} {s s' : Setter} {q q' : Bool}
    (hn : Supported minisize n s q) (hm : Supported minisize m s' q')
    (h : osip_hash signed n % 150 = osip_hash signed m % 150) : n = m := by
  obtain ⟨e, he, rfl, _⟩ := (pconfig_supported minisize).2 _ _ _ hn
  obtain ⟨f, hf, rfl, _⟩ := (pconfig_supported minisize).2 _ _ _ hm
  obtain ⟨i, hi, rfl⟩ := List.getElem_of_mem he
  obtain ⟨j, hj, rfl⟩ := List.getElem_of_mem hf
  have h1 := theTable_entries signed minisize (List.getElem?_eq_getElem hi)
  have h2 := theTable_entries signed minisize (List.getElem?_eq_getElem hj)
  simp only [HASH_TABLE_SIZE] at h1 h2
  rw [h, h2] at h1
  cases h1
  rfl

/-- **C69**. For every header name and whatever the parsers return: a supported header is handed to its
own parser and no other, an unknown one to the list of other headers; the message is rejected exactly
if the parser of a header which must be valid fails. -/
theorem c69_invalid_headers (signed minisize : Bool) {t : List (Option Nat)}
    (ht : parser_init signed minisize = some t) (set : Setter → Int) (unknown : Int) (n : Str) :
    ∃ ret who, set__header signed minisize t set unknown n = some (ret, who) ∧
      (∀ s, who = some s ↔ ∃ req, Supported minisize n s req) ∧
      (ret ≠ 0 ↔ ∃ s, Supported minisize n s true ∧ set s ≠ 0) := by
  rw [parser_init_ok] at ht
  cases ht
  obtain ⟨o, h1, h2⟩ := is_known_iff signed minisize n
  unfold set__header
  simp only [h1, Option.bind_eq_bind, Option.bind_some]
  cases o with
  | none =>
    have hno : ∀ s q, ¬ Supported minisize n s q := by
      intro s q h
      obtain ⟨e, he, hn, _⟩ := (pconfig_supported minisize).2 _ _ _ h
      obtain ⟨i, hi, rfl⟩ := List.getElem_of_mem he
      have := (h2 i).2 ⟨_, List.getElem?_eq_getElem hi, hn⟩
      cases this
    refine ⟨0, none, by simp, ?_, ?_⟩
    · intro s
      constructor
      · intro h; cases h
      · rintro ⟨q, h⟩; exact absurd h (hno s q)
    · constructor
      · intro h; exact absurd rfl h
      · rintro ⟨s, h, _⟩; exact absurd h (hno s true)
  | some i =>
    obtain ⟨e, he, rfl⟩ := (h2 i).1 rfl
    have hmem := List.mem_of_getElem? he
    have huniq : ∀ s q, Supported minisize e.hname s q → s = e.setheader ∧ e.ignored_when_invalid = !q := by
      intro s q h
      obtain ⟨f, hf, hn, hs, hq⟩ := (pconfig_supported minisize).2 _ _ _ h
      cases pconfig_unique minisize hf hmem hn
      exact ⟨hs.symm, hq⟩
    have hsup := (pconfig_supported minisize).1 e hmem
    simp only [he, call_method, Option.bind_some]
    refine ⟨_, _, rfl, ?_, ?_⟩
    · intro s
      constructor
      · intro h; cases h; exact ⟨_, hsup⟩
      · rintro ⟨q, h⟩; rw [(huniq s q h).1]
    · cases hig : e.ignored_when_invalid with
      | true =>
        simp only [if_true, ne_eq, not_true, if_false]
        simp only [false_iff]
        rintro ⟨s, h, _⟩
        have := (huniq s true h).2
        rw [hig] at this; cases this
      | false =>
        rw [hig] at hsup
        simp only [Bool.false_eq_true, if_false, ne_eq]
        constructor
        · intro h
          refine ⟨e.setheader, hsup, ?_⟩
          intro h0; simp [h0] at h
        · rintro ⟨s, h, hne⟩
          rw [(huniq s true h).1] at hne
          simp [hne]

/-! ## Examples -/

example : (parser_init true false).bind (fun t => is_known_header true false t "call-id".toList) = some (some 8) := by
  decide +kernel
example : (parser_init true false).bind (fun t => is_known_header true false t "subject".toList) = some none := by
  decide +kernel
example : Supported false "v".toList .via true := ⟨"v", rfl, .inl (by simp [supported])⟩
/-- An unknown name in the slot of a supported one. -/
example : (parser_init true false).bind (fun t => is_known_header true false t "supported".toList) = some none ∧
    osip_hash true "supported".toList % 150 = osip_hash true "contact".toList % 150 := by decide +kernel
example : (parser_init true false).bind (fun t => set__header true false t (fun _ => -5) 0 "cseq".toList) =
    some (-5, some .cseq) := by decide +kernel
example : (parser_init true false).bind (fun t => set__header true false t (fun _ => -5) 0 "route".toList) =
    some (0, some .route) := by decide +kernel

end Osip
