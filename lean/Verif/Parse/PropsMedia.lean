import Verif.Parse.Media
import Verif.Parse.PropsFrom

/-!
# C77, C78, C79: Content-Type, Accept, Accept-Encoding, Call-Info, plain values and other headers
-/

set_option autoImplicit false

namespace Osip

/-! ## Specification -/

/-- A media type which survives. -/
structure WfMedia (t s : Str) (ps : List Param) : Prop where
  type : t.Ok ∧ t ≠ [] ∧ Trimmed t ∧ '/' ∉ t ∧ ';' ∉ t
  subtype : s.Ok ∧ s ≠ [] ∧ Trimmed s ∧ ';' ∉ s
  params : ∀ p ∈ ps, WfParam p ∧ p.gvalue ≠ none

/-- The text of a media type. -/
def mediaText (t s : Str) (ps : List Param) : Str :=
  t ++ '/' :: (s ++ ps.flatMap fun p => ';' :: ' ' :: (p.gname ++ '=' :: p.gvalue.getD []))

/-! ## Lemmas -/

/-- The parameter with a blank before its name. -/
def spaced (p : Param) : Param := ⟨' ' :: p.gname, p.gvalue⟩

theorem trim_space (s : Str) : trim (' ' :: s) = trim s := by
  unfold trim
  rw [List.dropWhile_cons_of_pos (by rfl)]

theorem spaced_text {p : Param} (h : WfParam p) : TextParam (spaced p) := by
  obtain ⟨⟨h1, h2, h3, h4, h5⟩, _⟩ := h
  exact ⟨by simp [spaced], ok_cons.2 ⟨by decide, h2⟩, by simp [spaced, h3], by simp [spaced, h4], h5⟩

theorem spaced_params {ps : List Param} (h : ∀ p ∈ ps, p.gvalue ≠ none) :
    (ps.flatMap fun p => ';' :: ' ' :: (p.gname ++ '=' :: p.gvalue.getD [])) = (ps.map spaced).flatMap paramToStr := by
  induction ps with
  | nil => rfl
  | cons p ps ih =>
    rw [List.flatMap_cons, List.map_cons, List.flatMap_cons, ih fun q hq => h q (by simp [hq])]
    congr 1
    have := h p (by simp)
    obtain ⟨n, v⟩ := p
    cases v with
    | none => exact absurd rfl this
    | some v => simp [paramToStr, spaced]

theorem spaced_read {ps : List Param} (hne : ps ≠ []) (h : ∀ p ∈ ps, WfParam p) (r : List Char) :
    generic_param_parseall [] ((ps.map spaced).flatMap paramToStr ++ NUL :: r) = some (OSIP_SUCCESS, ps) := by
  have := c71_params_parse (ps.map spaced) (by simpa using hne) (by
    intro p hp
    obtain ⟨q, hq, rfl⟩ := List.mem_map.1 hp
    exact spaced_text (h q hq)) [] r
  rw [this, List.nil_append, List.map_map]
  congr 2
  conv => rhs; rw [← List.map_id ps]
  refine List.map_congr_left fun p hp => ?_
  obtain ⟨_, h1, h2⟩ := h p hp
  obtain ⟨n, v⟩ := p
  simp only [Function.comp, spaced, trim_space, show trim n = n from h1, id]
  cases v with
  | none => rfl
  | some v => simp only [Option.map_some, show trim v = v from h2 v rfl]

theorem mediaParamsStr_run (ps : List Param) (len : Nat) (buf : Str) (h : ∀ p ∈ ps, p.gvalue ≠ none) :
    mediaParamsStr ps len buf =
      some (OSIP_SUCCESS, some (buf ++ ps.flatMap fun p => ';' :: ' ' :: (p.gname ++ '=' :: p.gvalue.getD []))) := by
  induction ps generalizing len buf with
  | nil => simp [mediaParamsStr]
  | cons p ps ih =>
    obtain ⟨n, v⟩ := p
    cases v with
    | none => exact absurd rfl (h ⟨n, none⟩ (by simp))
    | some v =>
      simp only [mediaParamsStr]
      rw [putn_fits (by simp only [List.length_append, List.length_cons]; split <;> omega)]
      simp only [Option.bind_eq_bind, Option.bind_some]
      rw [ih _ _ fun q hq => h q (by simp [hq])]
      simp

/-- The parameters of a well-formed list, or nothing. -/
theorem optParams_wf {ps : List Param} (h : ∀ p ∈ ps, WfParam p) (r : List Char) :
    optParams [] (if ps.flatMap paramToStr = [] then none else some (ps.flatMap paramToStr ++ NUL :: r)) = some (OSIP_SUCCESS, ps) := by
  by_cases h0 : ps = []
  · subst h0; rfl
  · have : ps.flatMap paramToStr ≠ [] := fun h => h0 ((params_nil_iff ps).1 h)
    rw [if_neg this, optParams, c71_params_round_trip ps h0 h]; rfl

theorem optParams_spaced {ps : List Param} (h : ∀ p ∈ ps, WfParam p) (r : List Char) :
    optParams [] (if (ps.map spaced).flatMap paramToStr = [] then none else some ((ps.map spaced).flatMap paramToStr ++ NUL :: r)) =
      some (OSIP_SUCCESS, ps) := by
  by_cases h0 : ps = []
  · subst h0; rfl
  · have : (ps.map spaced).flatMap paramToStr ≠ [] := fun h => h0 (by simpa using (params_nil_iff _).1 h)
    rw [if_neg this, optParams, spaced_read h0 h]

theorem media_parse {t s : Str} {ps : List Param} (h : WfMedia t s ps) (r : List Char) :
    osip_content_type_parse (some (mediaText t s ps ++ NUL :: r)) =
      some (OSIP_SUCCESS, { type := some t, subtype := some s, gen_params := ps }) := by
  obtain ⟨⟨t1, t2, t3, t4, t5⟩, ⟨s1, s2, s3, s4⟩, hp⟩ := h
  have hT : mediaText t s ps = t ++ '/' :: (s ++ (ps.map spaced).flatMap paramToStr) := by
    rw [mediaText, spaced_params fun p q => (hp p q).2]
  have hG := params_ok (ps := ps.map spaced) (by
    intro p hp'
    obtain ⟨q, hq, rfl⟩ := List.mem_map.1 hp'
    exact spaced_text (hp q hq).1)
  have ho := optParams_spaced (fun p q => (hp p q).1) r
  generalize hg : (ps.map spaced).flatMap paramToStr = G at *
  rw [hT]
  have e1 : t ++ '/' :: (s ++ G) ++ NUL :: r = t ++ '/' :: (s ++ (G ++ NUL :: r)) := by simp
  have e2 : t ++ '/' :: (s ++ (G ++ NUL :: r)) = (t ++ '/' :: s) ++ (G ++ NUL :: r) := by simp
  have f1 := cstrchr_found (c := '/') t1 t4 (s ++ (G ++ NUL :: r))
  have f2 := cstrchr_follows (a := t ++ '/' :: s) (rest := G) (ok_append t1 (ok_cons.2 ⟨by decide, s1⟩)) (by simp [t5, s4])
    hG (hg ▸ params_follow _) r
  rw [← e2] at f2
  obtain ⟨a, t', ht⟩ : ∃ a t', t = a :: t' := by
    cases t with
    | nil => exact absurd rfl t2
    | cons a t' => exact ⟨a, t', rfl⟩
  have hd : deref (t ++ '/' :: (s ++ (G ++ NUL :: r))) = some a := by rw [ht]; rfl
  have ha : a ≠ NUL := by rw [ht] at t1; exact (ok_cons.1 t1).1
  have d1 : pdiff ('/' :: (s ++ (G ++ NUL :: r))) (t ++ '/' :: (s ++ (G ++ NUL :: r))) = t.length := pdiff_app _ _
  have d2 : pdiff (G ++ NUL :: r) ('/' :: (s ++ (G ++ NUL :: r))) = s.length + 1 := by
    have := pdiff_app ('/' :: s) (G ++ NUL :: r)
    simpa using this
  have tl : 0 < t.length := List.length_pos_iff.2 t2
  have sl : 0 < s.length := List.length_pos_iff.2 s2
  have key : contentTypeNames ps (t ++ '/' :: (s ++ (G ++ NUL :: r))) ('/' :: (s ++ (G ++ NUL :: r))) (G ++ NUL :: r) =
      some (OSIP_SUCCESS, { type := some t, subtype := some s, gen_params := ps }) := by
    have c1 := clrncpy_at t1 (b := '/' :: (s ++ G)) (ok_cons.2 ⟨by decide, ok_append s1 hG⟩) r (n := t.length) rfl
    have c2 := clrncpy_at s1 hG r (n := (s.length : Int) + 1 - 1) (by omega)
    simp only [List.cons_append, List.append_assoc] at c1
    simp only [contentTypeNames, d1, d2, List.drop_one, List.tail_cons, c1, c2, Option.bind_eq_bind, Option.bind_some]
    rw [if_neg (by omega), if_neg (by omega), show trim t = t from t3, show trim s = s from s3]
    rfl
  unfold osip_content_type_parse
  simp only [e1, hd, ha, Option.bind_eq_bind, Option.bind_some, if_false, f1, f2, ho]
  rw [if_neg (by decide)]
  by_cases hG0 : G = []
  · subst hG0
    have hc := cstr_at (s := '/' :: s) (ok_cons.2 ⟨by decide, s1⟩) r
    have hdr : ('/' :: (s ++ NUL :: r)).drop ('/' :: s).length = NUL :: r := by
      simp only [List.length_cons, List.drop_succ_cons]; exact drop_len _
    simp only [List.cons_append] at hc
    simp only [if_true, List.nil_append, hc, Option.bind_some, hdr]
    exact key
  · simp only [hG0, if_false]
    exact key

/-- **C77** when every parameter has a value. A Content-Type is written and read back. Missing: a parameter without value, which is
read but cannot be written, see `c77_violated`. -/
theorem c77_content_type_round_trip_partial {t s : Str} {ps : List Param} (h : WfMedia t s ps) :
    osip_content_type_to_str (some { type := some t, subtype := some s, gen_params := ps }) =
      some (OSIP_SUCCESS, some (mediaText t s ps)) ∧
    ∀ r, osip_content_type_parse (some (mediaText t s ps ++ NUL :: r)) =
      some (OSIP_SUCCESS, { type := some t, subtype := some s, gen_params := ps }) := by
  refine ⟨?_, media_parse h⟩
  simp only [osip_content_type_to_str]
  rw [put_fits (by simp; omega)]
  simp only [Option.bind_eq_bind, Option.bind_some]
  rw [mediaParamsStr_run _ _ _ fun p hp => (h.params p hp).2]
  simp [mediaText]

/-- **C77** for Accept. -/
theorem c77_accept_round_trip_partial {t s : Str} {ps : List Param} (h : WfMedia t s ps) :
    osip_accept_to_str (some { type := some t, subtype := some s, gen_params := ps }) =
      some (OSIP_SUCCESS, some (mediaText t s ps)) ∧
    ∀ r, osip_content_type_parse (some (mediaText t s ps ++ NUL :: r)) =
      some (OSIP_SUCCESS, { type := some t, subtype := some s, gen_params := ps }) := by
  refine ⟨?_, media_parse h⟩
  have := List.length_pos_iff.2 h.type.2.1
  simp only [osip_accept_to_str, Option.getD_some]
  rw [if_neg (by omega)]
  simp only [Option.bind_eq_bind, Option.bind_some]
  rw [put_fits (by simp; omega)]
  simp only [Option.bind_some]
  rw [mediaParamsStr_run _ _ _ fun p hp => (h.params p hp).2]
  simp [mediaText]

/-- **C77** does not hold for all headers: `text/plain;foo` is read, and the result cannot be written. -/
theorem c77_violated : ∃ ct, osip_content_type_parse (some (Str.buf "text/plain;foo".toList)) = some (OSIP_SUCCESS, ct) ∧
    osip_content_type_to_str (some ct) = some (OSIP_SYNTAXERROR, none) :=
  ⟨{ type := some "text".toList, subtype := some "plain".toList, gen_params := [⟨"foo".toList, none⟩] },
    by decide +kernel, by decide +kernel⟩

/-! ## Accept-Encoding, Call-Info -/

theorem entryParamsStr_run (ps : List Param) (len : Nat) (buf : Str) (h : buf.length < len) :
    entryParamsStr ps len buf = some (buf ++ ps.flatMap paramToStr) := by
  induction ps generalizing len buf with
  | nil => simp [entryParamsStr]
  | cons p ps ih =>
    obtain ⟨n, v⟩ := p
    cases v with
    | none =>
      simp only [entryParamsStr]
      rw [put_fits (by simp only [List.length_cons]; omega)]
      simp only [Option.bind_eq_bind, Option.bind_some]
      rw [ih _ _ (by simp only [List.length_append, List.length_cons]; omega)]
      simp [paramToStr]
    | some v =>
      simp only [entryParamsStr]
      rw [put_fits (by simp only [List.length_cons, List.length_append]; omega)]
      simp only [Option.bind_eq_bind, Option.bind_some]
      rw [ih _ _ (by simp only [List.length_append, List.length_cons]; omega)]
      simp [paramToStr]

theorem entry_to_str (e : Str) (ps : List Param) :
    osip_entry_to_str (some { element := some e, gen_params := ps }) = some (OSIP_SUCCESS, some (e ++ ps.flatMap paramToStr)) := by
  simp only [osip_entry_to_str]
  rw [put_fits (by simp)]
  simp only [Option.bind_eq_bind, Option.bind_some, List.nil_append]
  rw [entryParamsStr_run _ _ _ (by omega)]
  rfl

theorem entryRest_wf {e : Str} {ps : List Param} (he : e.Ok) (h0 : e ≠ []) (ht : Trimmed e) (hp : ∀ p ∈ ps, WfParam p) (r : List Char) :
    entryRest (e ++ (ps.flatMap paramToStr ++ NUL :: r))
      (if ps.flatMap paramToStr = [] then none else some (ps.flatMap paramToStr ++ NUL :: r)) =
      some (OSIP_SUCCESS, { element := some e, gen_params := ps }) := by
  have hG := params_ok (ps := ps) fun p q => (hp p q).1
  have ho := optParams_wf hp r
  generalize ps.flatMap paramToStr = G at *
  have el := List.length_pos_iff.2 h0
  have key : entryElement ps (e ++ (G ++ NUL :: r)) (G ++ NUL :: r) =
      some (OSIP_SUCCESS, { element := some e, gen_params := ps }) := by
    have c1 := clrncpy_at he hG r (n := e.length) rfl
    simp only [entryElement, pdiff_app, c1, Option.bind_eq_bind, Option.bind_some]
    rw [if_neg (by omega), show trim e = e from ht]
    rfl
  unfold entryRest
  simp only [ho, Option.bind_eq_bind, Option.bind_some]
  rw [if_neg (by decide)]
  by_cases hG0 : G = []
  · subst hG0
    simp only [if_true, List.nil_append, cstr_at he, Option.bind_some, drop_len]
    exact key
  · simp only [hG0, if_false]
    exact key

/-- **C78**. Accept-Encoding, Accept-Language and Content-Disposition are written and read back. -/
theorem c78_accept_encoding_round_trip {e : Str} {ps : List Param} (he : e.Ok) (h0 : e ≠ []) (ht : Trimmed e) (hs : ';' ∉ e)
    (hp : ∀ p ∈ ps, WfParam p) :
    ∃ text, osip_entry_to_str (some { element := some e, gen_params := ps }) = some (OSIP_SUCCESS, some text) ∧
      ∀ r, osip_accept_encoding_parse (text ++ NUL :: r) = some (OSIP_SUCCESS, { element := some e, gen_params := ps }) := by
  refine ⟨_, entry_to_str e ps, fun r => ?_⟩
  have f := cstrchr_follows he hs (params_ok (ps := ps) fun p q => (hp p q).1) (params_follow ps) r
  simp only [osip_accept_encoding_parse, List.append_assoc, f, Option.bind_eq_bind, Option.bind_some]
  exact entryRest_wf he h0 ht hp r

/-- **C78**. Call-Info, Alert-Info and Error-Info are written and read back; a semicolon may occur between the angle brackets. -/
theorem c78_call_info_round_trip {a u b : Str} {ps : List Param} (ha : a.Ok) (hu : u.Ok) (hb : b.Ok) (ha' : '<' ∉ a) (hu' : '>' ∉ u)
    (hb' : ';' ∉ b) (ht : Trimmed (a ++ '<' :: (u ++ '>' :: b))) (hp : ∀ p ∈ ps, WfParam p) :
    ∃ text, osip_entry_to_str (some { element := some (a ++ '<' :: (u ++ '>' :: b)), gen_params := ps }) = some (OSIP_SUCCESS, some text) ∧
      ∀ r, osip_call_info_parse (text ++ NUL :: r) =
        some (OSIP_SUCCESS, { element := some (a ++ '<' :: (u ++ '>' :: b)), gen_params := ps }) := by
  refine ⟨_, entry_to_str _ ps, fun r => ?_⟩
  have he : Str.Ok (a ++ '<' :: (u ++ '>' :: b)) := ok_append ha (ok_cons.2 ⟨by decide, ok_append hu (ok_cons.2 ⟨by decide, hb⟩)⟩)
  have k := entryRest_wf he (by simp) ht hp r
  have f := cstrchr_follows hb hb' (params_ok (ps := ps) fun p q => (hp p q).1) (params_follow ps) r
  have f1 := cstrchr_found (c := '<') ha ha' (u ++ '>' :: (b ++ (ps.flatMap paramToStr ++ NUL :: r)))
  have f2 := cstrchr_found (c := '>') hu hu' (b ++ (ps.flatMap paramToStr ++ NUL :: r))
  simp only [List.append_assoc, List.cons_append] at k
  simp only [osip_call_info_parse, List.append_assoc, List.cons_append, f1, f2, f, Option.bind_eq_bind, Option.bind_some, List.drop_one,
    List.tail_cons]
  exact k

/-! ## Plain values and other headers -/

/-- **C79**. Content-Length, Allow, Content-Encoding and Mime-Version keep their text exactly. -/
theorem c79_value_round_trip {v : Str} (hv : v.Ok) (h0 : v ≠ []) :
    osip_content_length_to_str (some (some v)) = some (OSIP_SUCCESS, some v) ∧
      ∀ r, osip_content_length_parse (some (v ++ NUL :: r)) = some (OSIP_SUCCESS, some v) := by
  refine ⟨rfl, fun r => ?_⟩
  have := List.length_pos_iff.2 h0
  have e := strncpy_at hv (b := []) (by decide) r (n := v.length) rfl
  simp only [osip_content_length_parse, cstr_at hv, Option.bind_eq_bind, Option.bind_some]
  rw [if_neg (by omega)]
  simp only [List.nil_append] at e
  rw [e]; rfl

/-- A name as it is written: the first letter is a capital one. -/
def capital : Str → Str
  | [] => []
  | c :: t => c.toUpper :: t

theorem upper_eq (c : Char) : (if 'a' ≤ c ∧ c ≤ 'z' then Char.ofNat (c.toNat - 32) else c) = c.toUpper := by
  unfold Char.toUpper
  by_cases h : 'a'.val ≤ c.val ∧ c.val ≤ 'z'.val
  · have h' : 'a' ≤ c ∧ c ≤ 'z' := h
    rw [if_pos h', dif_pos h]
    have h1 : 97 ≤ c.val.toNat := h.1
    have h2 : c.val.toNat ≤ 122 := h.2
    apply Char.ext
    apply UInt32.toNat_inj.1
    have hv : (c.toNat - 32).isValidChar := by left; show c.val.toNat - 32 < _; omega
    rw [Char.ofNat, dif_pos hv]
    show (c.val.toNat - 32) = (c.val + ('A'.val - 'a'.val)).toNat
    rw [UInt32.toNat_add, show ('A'.val - 'a'.val).toNat = 4294967264 from by decide]
    omega
  · have h' : ¬ ('a' ≤ c ∧ c ≤ 'z') := h
    rw [if_neg h', dif_neg h]

/-- **C79**. Every other header is stored without the blanks around it and written as one line `Name: value`, with a capital letter. -/
theorem c79_header {n : Str} {v : Option Str} (hn : n.Ok) (h0 : trim n ≠ []) (hv : ∀ x ∈ v, x.Ok) :
    (∀ r r', osip_message_set_header (some (n ++ NUL :: r)) (v.map (· ++ NUL :: r')) =
      some (OSIP_SUCCESS, some ⟨some (trim n), v.map trim⟩)) ∧
    osip_header_to_str (some ⟨some (trim n), v.map trim⟩) =
      some (OSIP_SUCCESS, some (capital (trim n) ++ ':' :: ' ' :: (v.map trim).getD [])) := by
  refine ⟨fun r r' => ?_, ?_⟩
  · have e := clrncpy_at hn (b := []) (by decide) r (n := n.length) rfl
    simp only [List.nil_append] at e
    cases v with
    | none => simp only [osip_message_set_header, cstr_at hn, e, Option.bind_eq_bind, Option.bind_some, Option.map_none]; rfl
    | some x =>
      have hx := hv x rfl
      have e' := clrncpy_at hx (b := []) (by decide) r' (n := x.length) rfl
      simp only [List.nil_append] at e'
      simp only [osip_message_set_header, cstr_at hn, cstr_at hx, e, e', Option.bind_eq_bind, Option.bind_some, Option.map_some]
      rfl
  · simp only [osip_header_to_str]
    rw [putn_fits (by simp; omega)]
    generalize trim n = m at *
    cases m with
    | nil => exact absurd rfl h0
    | cons c m =>
      simp only [Option.bind_eq_bind, Option.bind_some, List.nil_append, List.cons_append, capital, upper_eq]
      rfl

/-! ## Bounds -/

theorem optParams_total {g : Option (List Char)} (hg : ∀ x ∈ g, ∃ (u : Str) (r : List Char), u.Ok ∧ u ≠ [] ∧ x = u ++ NUL :: r) :
    ∃ res, optParams [] g = some res := by
  cases g with
  | none => exact ⟨_, rfl⟩
  | some x =>
    obtain ⟨u, r, h1, h2, rfl⟩ := hg x rfl
    exact c71_params_in_bounds h1 h2 [] r

theorem contentTypeNames_total (ps : List Param) {a s p : Str} (hs : Str.Ok (a ++ '/' :: s)) (hp : p.length ≤ (a ++ '/' :: s).length) (r : List Char) :
    ∃ res, contentTypeNames ps ((a ++ '/' :: s) ++ NUL :: r) ('/' :: s ++ NUL :: r) (p ++ NUL :: r) = some res := by
  have hs' := (ok_cons.1 (ok_append_iff.1 hs).2).2
  unfold contentTypeNames
  simp only [pdiff_nul, drop_nul]
  split
  · exact ⟨_, rfl⟩
  · rw [clrncpy_total hs r (by simp) (by simp; omega)]
    simp only [Option.bind_eq_bind, Option.bind_some]
    split
    · exact ⟨_, rfl⟩
    · rw [clrncpy_total hs' r (by omega) (by simp; omega)]
      exact ⟨_, rfl⟩

/-- **C77**. On every string the Content-Type parser ends and reads nothing outside the string and its terminator. -/
theorem c77_in_bounds {s : Str} (hs : s.Ok) (r : List Char) : ∃ res, osip_content_type_parse (some (s ++ NUL :: r)) = some res := by
  unfold osip_content_type_parse
  obtain ⟨c, hc, _⟩ := deref_str s r
  simp only [hc, Option.bind_eq_bind, Option.bind_some]
  split
  · exact ⟨_, rfl⟩
  rcases cstrchr_str (c := '/') hs (by decide) with ⟨_, h1⟩ | ⟨a, s1, rfl, ha, ha1, hs1, h1⟩
  · rcases cstrchr_str (c := ';') hs (by decide) with ⟨_, h2⟩ | ⟨b, s2, e, hb, hb1, hs2, h2⟩
    · simp only [h1, h2, Option.bind_some]; exact ⟨_, rfl⟩
    · simp only [h1, h2, Option.bind_some]; exact ⟨_, rfl⟩
  · have hcs := cstr_at (s := '/' :: s1) (ok_cons.2 ⟨by decide, hs1⟩) r
    rcases cstrchr_str (c := ';') hs (by decide) with ⟨_, h2⟩ | ⟨b, s2, e, hb, hb1, hs2, h2⟩
    · simp only [h1, h2, Option.bind_some, optParams, hcs]
      rw [if_neg (by decide)]
      have hd : ('/' :: s1 ++ NUL :: r).drop ('/' :: s1).length = [] ++ NUL :: r := drop_len _
      rw [hd]
      exact contentTypeNames_total _ hs (by simp) r
    · obtain ⟨res, hres⟩ := optParams_total (g := some (';' :: s2 ++ NUL :: r)) (by
        rintro x hx; cases hx; exact ⟨_, r, ok_cons.2 ⟨by decide, hs2⟩, by simp, rfl⟩)
      simp only [h1, h2, Option.bind_some, hres]
      split
      · exact ⟨_, rfl⟩
      · exact contentTypeNames_total _ hs (by rw [e]; simp) r

theorem entryElement_total (ps : List Param) {s p : Str} (hs : s.Ok) (_hp : p.length ≤ s.length) (r : List Char) :
    ∃ res, entryElement ps (s ++ NUL :: r) (p ++ NUL :: r) = some res := by
  unfold entryElement
  simp only [pdiff_nul]
  split
  · exact ⟨_, rfl⟩
  · rw [clrncpy_total hs r (by omega) (by omega)]
    exact ⟨_, rfl⟩

theorem entryRest_total {s : Str} (hs : s.Ok) {g : Option Str} (hg : ∀ u ∈ g, Str.Ok u ∧ u ≠ [] ∧ u.length ≤ s.length) (r : List Char) :
    ∃ res, entryRest (s ++ NUL :: r) (g.map (· ++ NUL :: r)) = some res := by
  obtain ⟨res, hres⟩ := optParams_total (g := g.map (· ++ NUL :: r)) (by
    intro x hx
    cases g with
    | none => cases hx
    | some u => cases hx; exact ⟨u, r, (hg u rfl).1, (hg u rfl).2.1, rfl⟩)
  unfold entryRest
  simp only [hres, Option.bind_eq_bind, Option.bind_some]
  split
  · exact ⟨_, rfl⟩
  cases g with
  | none =>
    simp only [Option.map_none, cstr_at hs, Option.bind_some]
    rw [drop_len]
    exact entryElement_total (p := []) _ hs (by simp) r
  | some u => exact entryElement_total _ hs (hg u rfl).2.2 r

/-- **C78**. The parsers of Accept-Encoding and Call-Info end on every string and read nothing outside it. -/
theorem c78_in_bounds {s : Str} (hs : s.Ok) (r : List Char) :
    (∃ res, osip_accept_encoding_parse (s ++ NUL :: r) = some res) ∧ ∃ res, osip_call_info_parse (s ++ NUL :: r) = some res := by
  constructor
  · unfold osip_accept_encoding_parse
    rcases cstrchr_str (c := ';') hs (by decide) with ⟨_, h1⟩ | ⟨a, b, e, ha, ha1, hb, h1⟩
    · simp only [h1, Option.bind_eq_bind, Option.bind_some]
      exact entryRest_total hs (g := none) (by simp) r
    · simp only [h1, Option.bind_eq_bind, Option.bind_some]
      exact entryRest_total hs (g := some (';' :: b)) (by
        rintro u hu; cases hu; exact ⟨ok_cons.2 ⟨by decide, hb⟩, by simp, by rw [e]; simp⟩) r
  · unfold osip_call_info_parse
    rcases cstrchr_str (c := '<') hs (by decide) with ⟨_, h1⟩ | ⟨a, b, e, ha, ha1, hb, h1⟩
    · simp only [h1, Option.bind_eq_bind, Option.bind_some]; exact ⟨_, rfl⟩
    simp only [h1, Option.bind_eq_bind, Option.bind_some, drop_nul]
    rcases cstrchr_str (c := '>') hb (by decide) with ⟨_, h2⟩ | ⟨a2, b2, e2, _, _, hb2, h2⟩
    · simp only [h2, Option.bind_some]; exact ⟨_, rfl⟩
    simp only [h2, Option.bind_some, drop_nul]
    rcases cstrchr_str (c := ';') hb2 (by decide) with ⟨_, h3⟩ | ⟨a3, b3, e3, _, _, hb3, h3⟩
    · simp only [h3, Option.bind_some]
      exact entryRest_total hs (g := none) (by simp) r
    · simp only [h3, Option.bind_some]
      exact entryRest_total hs (g := some (';' :: b3)) (by
        rintro u hu; cases hu; exact ⟨ok_cons.2 ⟨by decide, hb3⟩, by simp, by rw [e, e2, e3]; simp; omega⟩) r

/-! ## Examples -/

example : osip_content_type_parse (some (Str.buf "multipart / mixed ; boundary=\"a;b\"".toList)) =
    some (OSIP_SUCCESS, ⟨some "multipart".toList, some "mixed".toList,
      [⟨"boundary".toList, some "\"a;b\"".toList⟩]⟩) := by decide +kernel

example : osip_content_type_parse (some (Str.buf ";a/b".toList)) =
    some (OSIP_SYNTAXERROR, { type := some ";a".toList, gen_params := [⟨"a/b".toList, none⟩] }) := by decide +kernel

example : osip_content_type_to_str (some ⟨some "a".toList, some "b".toList,
      [⟨"x".toList, some "1".toList⟩, ⟨"y".toList, some "2".toList⟩]⟩) =
    some (OSIP_SUCCESS, some "a/b; x=1; y=2".toList) := by decide +kernel

example : osip_call_info_parse (Str.buf "<http://a;b>;purpose=icon".toList) =
    some (OSIP_SUCCESS, { element := some "<http://a;b>".toList, gen_params := [⟨"purpose".toList, some "icon".toList⟩] }) := by
  decide +kernel

example : osip_accept_encoding_parse (Str.buf "gzip ;q=0.5".toList) =
    some (OSIP_SUCCESS, { element := some "gzip".toList, gen_params := [⟨"q".toList, some "0.5".toList⟩] }) := by decide +kernel

example : osip_header_to_str (some ⟨some "subject".toList, some "hello".toList⟩) =
    some (OSIP_SUCCESS, some "Subject: hello".toList) := by decide +kernel

end Osip
