import Verif.Parse.PropsBody

/-!
# C84, C85: bodies and the parts of multipart bodies
-/

set_option autoImplicit false

namespace Osip

/-! ## Specification -/

/-- The name of a header of a part is taken for Content-Type. -/
def TypeName (a : Str) : Prop := lower (a.take 12) = "content-type".toList

instance (a : Str) : Decidable (TypeName a) := inferInstanceAs (Decidable (_ = _))

/-- A header line of a part: the name and the text behind the colon. -/
structure PartLine (l : Str × Str) : Prop where
  name : l.1 ≠ [] ∧ l.1.Ok ∧ ∀ c ∈ l.1, c ≠ ':' ∧ c ≠ '\r' ∧ c ≠ '\n'
  start : l.1.head? ≠ some ' ' ∧ l.1.head? ≠ some '\t'
  value : l.2 ≠ [] ∧ l.2.Ok ∧ ∀ c ∈ l.2, c ≠ '\r' ∧ c ≠ '\n'

/-- The header lines of a part with the headers and the content type they stand for. The last Content-Type counts. -/
inductive PartHeaders : List (Str × Str) → List Header → Option MediaType → Prop
  | nil : PartHeaders [] [] none
  | header {a b : Str} {ls : List (Str × Str)} {hs : List Header} {ct : Option MediaType} : PartLine (a, b) → ¬ TypeName (trim a) →
      PartHeaders ls hs ct → PartHeaders ((a, b) :: ls) (⟨some (trim a), some (trim b)⟩ :: hs) ct
  | type {a b t s : Str} {ps : List Param} {ls : List (Str × Str)} {hs : List Header} {ct : Option MediaType} : PartLine (a, b) →
      TypeName (trim a) → WfMedia t s ps → trim b = mediaText t s ps → PartHeaders ls hs ct →
      PartHeaders ((a, b) :: ls) hs (ct.or (some ⟨some t, some s, ps⟩))

/-- The text of header lines. -/
def linesText (ls : List (Str × Str)) : Str := ls.flatMap fun l => l.1 ++ ':' :: (l.2 ++ ['\r', '\n'])

/-- A part of a multipart body. -/
inductive IsPart : List Char → Body → Prop
  | mk {ls : List (Str × Str)} {hs : List Header} {ct : Option MediaType} {data : List Char} : PartHeaders ls hs ct → ls ≠ [] → data ≠ [] →
      IsPart (linesText ls ++ '\r' :: '\n' :: data) ⟨data, hs, ct⟩

/-- The parts in front of the closing boundary. -/
inductive IsParts (sep : Str) : List Char → List Body → Prop
  | one {p : List Char} {b : Body} : IsPart p b → ¬ sep <:+: '\r' :: '\n' :: (p ++ ['\r']) → p.count NUL < 1000 →
      IsParts sep (sep ++ ('\r' :: '\n' :: (p ++ ['\r']))) [b]
  | cons {p ps : List Char} {b : Body} {bs : List Body} : IsPart p b → ¬ sep <:+: '\r' :: '\n' :: (p ++ ['\r']) → p.count NUL < 1000 →
      IsParts sep ps bs → IsParts sep (sep ++ ('\r' :: '\n' :: (p ++ ['\r'])) ++ ps) (b :: bs)

/-! ## Header lines of a part -/

theorem bodyLine_header (b : Body) {n v : Str} (hn : n.Ok) (ht : ¬ TypeName n) :
    bodyLine b n v = some (OSIP_SUCCESS, { b with headers := b.headers ++ [⟨some n, some v⟩] }) := by
  obtain ⟨k, k1, k2⟩ := c57_strncasecmp hn (t := "content-type".toList) (by decide) [] [] 12
  unfold bodyLine
  rw [Str.buf, k1]
  simp only [Option.bind_eq_bind, Option.bind_some]
  rw [if_neg]
  · rfl
  · intro h
    exact ht (by rw [TypeName, k2.1 h]; decide)

theorem bodyLine_type (b : Body) {n v t s : Str} {ps : List Param} (hn : n.Ok) (ht : TypeName n) (hw : WfMedia t s ps) (hv : v = mediaText t s ps) :
    bodyLine b n v = some (OSIP_SUCCESS, { b with content_type := some ⟨some t, some s, ps⟩ }) := by
  obtain ⟨k, k1, k2⟩ := c57_strncasecmp hn (t := "content-type".toList) (by decide) [] [] 12
  unfold bodyLine
  rw [Str.buf, k1]
  simp only [Option.bind_eq_bind, Option.bind_some]
  rw [if_pos (k2.2 (by rw [ht]; decide)), hv, osip_body_set_contenttype, (c77_content_type_round_trip_partial hw).2]
  simp [OSIP_SUCCESS]

theorem bodyHeaders_line {a b : Str} (h : PartLine (a, b)) {rest : Str} (hr : rest.Ok) (hb : rest.head? ≠ some ' ' ∧ rest.head? ≠ some '\t')
    (r : List Char) (n : Nat) (bd bd' : Body) (hl : bodyLine bd (trim a) (trim b) = some (OSIP_SUCCESS, bd')) :
    bodyHeaders (n + 1) bd (a ++ ':' :: (b ++ ['\r', '\n']) ++ rest ++ NUL :: r) =
      if rest.head? = some '\r' ∨ rest.head? = some '\n' then some (OSIP_SUCCESS, bd', some (rest ++ NUL :: r))
      else bodyHeaders n bd' (rest ++ NUL :: r) := by
  obtain ⟨⟨h1, h2, h3⟩, -, h4, h5, h6⟩ := h
  simp only at h1 h2 h3 h4 h5 h6
  have hline : ∀ c ∈ a ++ ':' :: b, c ≠ '\r' ∧ c ≠ '\n' := by
    intro c hc
    simp only [List.mem_append, List.mem_cons] at hc
    rcases hc with hc | rfl | hc
    · exact (h3 c hc).2
    · decide
    · exact h6 c hc
  have hok : Str.Ok (a ++ ':' :: b) := ok_append h2 (ok_cons.2 ⟨by decide, h5⟩)
  have hf := crlfRun hline hok (EndOfLine.crlf (rest := rest)) r 0
  rw [if_neg (by simp [hb])] at hf
  have e1 : a ++ ':' :: (b ++ ['\r', '\n']) ++ rest ++ NUL :: r = (a ++ ':' :: b) ++ ('\r' :: '\n' :: rest) ++ NUL :: r := by simp
  have e2 : a ++ ':' :: (b ++ ['\r', '\n']) ++ rest ++ NUL :: r = a ++ (':' :: (b ++ ['\r', '\n'] ++ rest ++ NUL :: r)) := by simp
  have e3 : a ++ ':' :: (b ++ ['\r', '\n']) ++ rest ++ NUL :: r = a ++ ((':' :: (b ++ ['\r', '\n'] ++ rest)) ++ NUL :: r) := by simp
  have hro : Str.Ok (b ++ ['\r', '\n'] ++ rest) := ok_append (ok_append h5 (by decide)) hr
  conv => lhs; unfold bodyHeaders
  rw [e1, hf, ← e1]
  simp only [Option.bind_eq_bind, Option.bind_some]
  rw [if_neg (by simp)]
  have hc := cstrchr_found (c := ':') h2 (fun hm => (h3 _ hm).1 rfl) (b ++ ['\r', '\n'] ++ rest ++ NUL :: r)
  rw [← e2] at hc
  rw [hc]
  simp only [Option.bind_some]
  have hpd : pdiff (':' :: (b ++ ['\r', '\n'] ++ rest ++ NUL :: r)) (a ++ ':' :: (b ++ ['\r', '\n']) ++ rest ++ NUL :: r) = a.length := by
    rw [e2, pdiff_app]
  rw [hpd]
  have la := List.length_pos_iff.2 h1
  have lb := List.length_pos_iff.2 h4
  rw [if_neg (by omega)]
  have ha := clrncpy_at h2 (b := ':' :: (b ++ ['\r', '\n'] ++ rest)) (ok_cons.2 ⟨by decide, hro⟩) r (n := a.length) rfl
  rw [← e3] at ha
  rw [ha]
  simp only [Option.bind_some, List.length_append, List.length_cons, Nat.zero_add]
  rw [if_neg (by omega)]
  have hb2 := clrncpy_at h5 (b := ['\r', '\n'] ++ rest) (ok_append (by decide) hr) r (n := b.length) rfl
  have e4 : (':' :: (b ++ ['\r', '\n'] ++ rest ++ NUL :: r)).drop 1 = b ++ (['\r', '\n'] ++ rest ++ NUL :: r) := by simp
  rw [e4, show ((((a.length + (b.length + 1) + (rest.length + 1 + 1 - rest.length) : Nat) : Int) - 2 - a.length) - 1) = b.length from by omega, hb2]
  simp only [Option.bind_some]
  rw [hl]
  simp only [Option.bind_some]
  rw [if_neg (by simp [OSIP_SUCCESS])]
  rw [show (a ++ ':' :: (b ++ ['\r', '\n']) ++ rest ++ NUL :: r).drop (a.length + (b.length + 1) + (rest.length + 1 + 1 - rest.length)) = rest ++ NUL :: r from by
    rw [show a ++ ':' :: (b ++ ['\r', '\n']) ++ rest ++ NUL :: r = (a ++ ':' :: (b ++ ['\r', '\n'])) ++ (rest ++ NUL :: r) from by simp]
    apply drop_app
    simp; omega]
  cases rest with
  | nil =>
    simp only [List.nil_append, deref, List.head?_cons, Option.bind_some, List.head?_nil]
    rw [if_neg (by decide)]
    simp
  | cons c t =>
    simp only [List.cons_append, deref, List.head?_cons, Option.bind_some, Option.some.injEq, CR, LF]
    rfl

theorem head_lines {ls : List (Str × Str)} {hs : List Header} {ct : Option MediaType} (h : PartHeaders ls hs ct) (t : Str) :
    (linesText ls ++ '\r' :: '\n' :: t).head? ≠ some ' ' ∧ (linesText ls ++ '\r' :: '\n' :: t).head? ≠ some '\t' ∧
      (ls ≠ [] → (linesText ls ++ '\r' :: '\n' :: t).head? ≠ some '\r' ∧ (linesText ls ++ '\r' :: '\n' :: t).head? ≠ some '\n') := by
  have key : ∀ {a b : Str} {ls : List (Str × Str)}, PartLine (a, b) → (linesText ((a, b) :: ls) ++ '\r' :: '\n' :: t).head? = a.head? := by
    intro a b ls h
    obtain ⟨⟨h1, -⟩, -⟩ := h
    cases a with
    | nil => exact absurd rfl h1
    | cons c a => simp [linesText]
  have fin : ∀ {a b : Str}, PartLine (a, b) → a.head? ≠ some ' ' ∧ a.head? ≠ some '\t' ∧ a.head? ≠ some '\r' ∧ a.head? ≠ some '\n' := by
    intro a b h
    obtain ⟨⟨h1, -, h3⟩, ⟨h4, h5⟩, -⟩ := h
    refine ⟨h4, h5, fun e => ?_, fun e => ?_⟩
    · exact (h3 _ (List.mem_of_mem_head? e)).2.1 rfl
    · exact (h3 _ (List.mem_of_mem_head? e)).2.2 rfl
  cases h with
  | nil => simp [linesText]
  | header hl _ _ => rw [key hl]; have := fin hl; exact ⟨this.1, this.2.1, fun _ => this.2.2⟩
  | type hl _ _ _ _ => rw [key hl]; have := fin hl; exact ⟨this.1, this.2.1, fun _ => this.2.2⟩

theorem lines_ok {ls : List (Str × Str)} {hs : List Header} {ct : Option MediaType} (h : PartHeaders ls hs ct) : Str.Ok (linesText ls) := by
  have key : ∀ {a b : Str} {ls : List (Str × Str)}, PartLine (a, b) → Str.Ok (linesText ls) → Str.Ok (linesText ((a, b) :: ls)) := by
    intro a b ls h ih
    show Str.Ok ((a ++ ':' :: (b ++ ['\r', '\n'])) ++ linesText ls)
    exact ok_append (ok_append h.name.2.1 (ok_cons.2 ⟨by decide, ok_append h.value.2.1 (by decide)⟩)) ih
  induction h with
  | nil => exact fun h => by cases h
  | header hl _ _ ih => exact key hl ih
  | type hl _ _ _ _ ih => exact key hl ih

theorem bodyHeaders_read {ls : List (Str × Str)} {hs : List Header} {ct : Option MediaType} (h : PartHeaders ls hs ct) (hne : ls ≠ []) {t : Str}
    (ht : t.Ok) (r : List Char) (n : Nat) (hn : ls.length ≤ n) (bd : Body) :
    bodyHeaders n bd (linesText ls ++ '\r' :: '\n' :: t ++ NUL :: r) =
      some (OSIP_SUCCESS, { bd with headers := bd.headers ++ hs, content_type := ct.or bd.content_type }, some ('\r' :: '\n' :: t ++ NUL :: r)) := by
  have step : ∀ {a b : Str} {ls : List (Str × Str)} {hs : List Header} {ct : Option MediaType} (bd bd' : Body) (n : Nat), PartLine (a, b) →
      PartHeaders ls hs ct → bodyLine bd (trim a) (trim b) = some (OSIP_SUCCESS, bd') →
      (ls ≠ [] → bodyHeaders n bd' (linesText ls ++ '\r' :: '\n' :: t ++ NUL :: r) =
        some (OSIP_SUCCESS, { bd' with headers := bd'.headers ++ hs, content_type := ct.or bd'.content_type }, some ('\r' :: '\n' :: t ++ NUL :: r))) →
      bodyHeaders (n + 1) bd (linesText ((a, b) :: ls) ++ '\r' :: '\n' :: t ++ NUL :: r) =
        some (OSIP_SUCCESS, { bd' with headers := bd'.headers ++ hs, content_type := ct.or bd'.content_type }, some ('\r' :: '\n' :: t ++ NUL :: r)) := by
    intro a b ls hs ct bd bd' n hl hp hb ih
    have hd := head_lines hp t
    have e : linesText ((a, b) :: ls) ++ '\r' :: '\n' :: t ++ NUL :: r =
        a ++ ':' :: (b ++ ['\r', '\n']) ++ (linesText ls ++ '\r' :: '\n' :: t) ++ NUL :: r := by simp [linesText]
    rw [e, bodyHeaders_line hl (ok_append (lines_ok hp) (ok_cons.2 ⟨by decide, ok_cons.2 ⟨by decide, ht⟩⟩)) ⟨hd.1, hd.2.1⟩ r n bd bd' hb]
    by_cases h0 : ls = []
    · subst h0
      cases hp
      simp [linesText]
    · have := hd.2.2 h0
      rw [if_neg (fun h => h.elim this.1 this.2), ih h0]
  induction h generalizing n bd with
  | nil => exact absurd rfl hne
  | @header a b ls hs ct hl hnt hp ih =>
    obtain ⟨n, rfl⟩ : ∃ m, n = m + 1 := ⟨n - 1, by simp at hn; omega⟩
    rw [step bd _ n hl hp (bodyLine_header bd (trim_ok hl.name.2.1) hnt) (fun h0 => ih h0 n (by simp at hn; omega) _)]
    simp
  | @type a b t' s ps ls hs ct hl ht' hw hv hp ih =>
    obtain ⟨n, rfl⟩ : ∃ m, n = m + 1 := ⟨n - 1, by simp at hn; omega⟩
    rw [step bd _ n hl hp (bodyLine_type bd (trim_ok hl.name.2.1) ht' hw hv) (fun h0 => ih h0 n (by simp at hn; omega) _)]
    cases ct <;> simp

theorem lines_length {ls : List (Str × Str)} : ls.length ≤ (linesText ls).length := by
  induction ls with
  | nil => simp
  | cons l ls ih =>
    simp only [linesText, List.flatMap_cons, List.length_append, List.length_cons] at ih ⊢
    omega

/-- **C84**. A part of a multipart body is read as its headers, its content type and all its data, which may have zero bytes. -/
theorem c84_part {p : List Char} {b : Body} (h : IsPart p b) : osip_body_parse_mime (p ++ [NUL]) p.length = some (OSIP_SUCCESS, b) := by
  cases h with
  | @mk ls hs ct data hp hne hd =>
    obtain ⟨s, r, hs', e, -, -⟩ := nul_split data []
    have e2 : linesText ls ++ '\r' :: '\n' :: data ++ [NUL] = linesText ls ++ '\r' :: '\n' :: s ++ NUL :: r := by
      rw [List.append_assoc, List.append_assoc]
      simp only [List.cons_append]
      rw [e]
    have hl := lines_length (ls := ls)
    have hdl := List.length_pos_iff.2 hd
    unfold osip_body_parse_mime
    rw [e2, bodyHeaders_read hp hne hs' r _ (by simp; omega) {}, ← e2]
    simp only [Option.bind_eq_bind, Option.bind_some]
    rw [if_neg (by simp [OSIP_SUCCESS])]
    rw [show '\r' :: '\n' :: s ++ NUL :: r = '\r' :: '\n' :: (data ++ [NUL]) from by rw [e]; rfl]
    have hst : startsWith "\r\n".toList ('\r' :: '\n' :: (data ++ [NUL])) = some true := rfl
    rw [hst]
    simp only [Option.bind_some, if_true, List.drop_succ_cons, List.drop_zero]
    have hn : ((linesText ls ++ '\r' :: '\n' :: data).length : Int) - pdiff (data ++ [NUL]) (linesText ls ++ '\r' :: '\n' :: data ++ [NUL]) = data.length := by
      simp [pdiff]; omega
    have hpu : (pure (data ++ [NUL]) : Option (List Char)) = some (data ++ [NUL]) := rfl
    rw [hpu]
    simp only [Option.bind_some]
    rw [hn, if_neg (by omega), memcpy, if_pos (by simp; omega)]
    simp

/-! ## Multipart bodies -/

theorem no_occ {y : Str} (hy : '\n' ∉ y) {a : List Char} (ha : ¬ ('\n' :: y) <:+: a) (rest : List Char) :
    ∀ i, i < a.length → ¬ ('\n' :: y) <+: (a ++ ('\n' :: y ++ rest)).drop i := by
  intro i hi h
  rw [List.drop_append_of_le_length (by omega)] at h
  obtain ⟨t, ht⟩ := h
  have hda : (a.drop i).length = a.length - i := List.length_drop
  rcases List.append_eq_append_iff.1 ht with ⟨u, e1, e2⟩ | ⟨u, e1, e2⟩
  · -- inside
    apply ha
    rw [List.infix_iff_prefix_suffix]
    exact ⟨a.drop i, ⟨u, e1.symm⟩, List.drop_suffix _ _⟩
  · cases u with
    | nil =>
      apply ha
      rw [List.infix_iff_prefix_suffix]
      exact ⟨a.drop i, ⟨[], by rw [List.append_nil] at e1 ⊢; exact e1⟩, List.drop_suffix _ _⟩
    | cons c u =>
      simp only [List.cons_append, List.cons.injEq] at e2
      obtain ⟨rfl, -⟩ := e2
      cases hd : a.drop i with
      | nil => rw [hd] at hda; simp at hda; omega
      | cons d l =>
        rw [hd] at e1
        simp only [List.cons_append, List.cons.injEq] at e1
        exact hy (by rw [e1.2]; simp)

theorem mimePart_read {sep : Str} (hs : ∃ x, sep = '\n' :: '-' :: '-' :: x) (p rest : List Char) :
    mimePart sep (sep ++ ('\r' :: '\n' :: (p ++ ['\r']) ++ (sep ++ rest))) (sep ++ rest) = some (p ++ '\r' :: (sep ++ rest), (p.length : Int)) := by
  obtain ⟨q, n, h1, -, -, h2⟩ := mimePart_at hs ('\r' :: '\n' :: (p ++ ['\r'])) rest
  obtain ⟨rfl, rfl⟩ := h2 p rfl
  exact h1

theorem mimeLoop_read {y : Str} (hy : '\n' ∉ y) (z : List Char) {t : List Char} {bs : List Body} (h : IsParts ('\n' :: '-' :: '-' :: y) t bs)
    (pre epi : List Char) (hpre : ¬ ('\n' :: '-' :: '-' :: y) <:+: pre) (hc : pre.count NUL < 1000) (n : Nat) (hn : bs.length ≤ n) (bodies : List Body) :
    mimeLoop ('\n' :: '-' :: '-' :: y) (NUL :: z) n bodies (pre ++ (t ++ ('\n' :: '-' :: '-' :: y ++ ('-' :: '-' :: epi) ++ NUL :: z))) =
      some (OSIP_SUCCESS, bodies ++ bs) := by
  have hy' : '\n' ∉ '-' :: '-' :: y := by
    intro h
    simp only [List.mem_cons] at h
    rcases h with h | h | h
    · exact absurd h (by decide)
    · exact absurd h (by decide)
    · exact hy h
  generalize hsep : '\n' :: '-' :: '-' :: y = sep at *
  have h0 : sep ≠ [] := by subst hsep; simp
  have hs : ∃ x, sep = '\n' :: '-' :: '-' :: x := ⟨y, hsep.symm⟩
  have hocc : ∀ {a : List Char}, ¬ sep <:+: a → ∀ rest i, i < a.length → ¬ sep <+: (a ++ (sep ++ rest)).drop i := by
    intro a ha rest
    subst hsep
    exact no_occ hy' ha rest
  have step : ∀ {p : List Char} {b : Body} (pre : List Char) (n : Nat) (bodies : List Body) (rest : List Char), IsPart p b →
      ¬ sep <:+: '\r' :: '\n' :: (p ++ ['\r']) → p.count NUL < 1000 → ¬ sep <:+: pre → pre.count NUL < 1000 →
      mimeLoop sep (NUL :: z) (n + 1) bodies (pre ++ (sep ++ ('\r' :: '\n' :: (p ++ ['\r']) ++ (sep ++ (rest ++ NUL :: z))))) =
        (startsWith "--".toList (rest ++ NUL :: z)).bind fun e => if e then some (OSIP_SUCCESS, bodies ++ [b])
          else mimeLoop sep (NUL :: z) n (bodies ++ [b]) (sep ++ (rest ++ NUL :: z)) := by
    intro p b pre n bodies rest hp h1 h2 h3 h4
    conv => lhs; unfold mimeLoop find_next_occurence
    rw [occ_found h0 pre _ 1000 (hocc h3 _) h4 (by simp; omega)]
    simp only [Option.bind_eq_bind, Option.bind_some]
    rw [List.drop_left, occ_found h0 _ _ 1000 (hocc h1 _) (by
      simp only [List.count_cons, List.count_append]
      simpa [show ('\r' == NUL) = false by decide, show ('\n' == NUL) = false by decide] using h2) (by simp)]
    simp only [Option.bind_some]
    rw [mimePart_read hs]
    simp only [Option.bind_some]
    rw [memcpy, if_pos ⟨by omega, by simp; omega⟩]
    simp only [Option.bind_some, Int.toNat_natCast, List.take_left]
    rw [c84_part hp]
    simp only [Option.bind_some]
    rw [if_neg (by simp [OSIP_SUCCESS]), List.drop_left]
    congr 1
  induction h generalizing pre n bodies with
  | @one p b hp h1 h2 =>
    obtain ⟨n, rfl⟩ : ∃ m, n = m + 1 := ⟨n - 1, by simp at hn; omega⟩
    have := step pre n bodies ('-' :: '-' :: epi) hp h1 h2 hpre hc
    simp only [List.append_assoc] at this ⊢
    rw [this]
    rfl
  | @cons p ps b bs hp h1 h2 hps ih =>
    obtain ⟨n, rfl⟩ : ∃ m, n = m + 1 := ⟨n - 1, by simp at hn; omega⟩
    have hnil : ¬ sep <:+: [] := by
      intro h
      exact h0 (List.infix_nil.1 h)
    have ih := ih [] (by simp) n (by simp at hn; omega) (bodies ++ [b]) hnil
    obtain ⟨m, hm⟩ : ∃ m, ps = sep ++ '\r' :: m := by
      cases hps with
      | one => exact ⟨_, rfl⟩
      | cons => exact ⟨_, by simp only [List.append_assoc, List.cons_append]; rfl⟩
    have := step pre n bodies ('\r' :: m ++ (sep ++ '-' :: '-' :: epi)) hp h1 h2 hpre hc
    subst hm
    simp only [List.append_assoc, List.cons_append, List.nil_append] at this ih ⊢
    rw [this]
    have hst : ∀ w, startsWith "--".toList ('\r' :: w) = some false := fun w => rfl
    rw [hst, Option.bind_some, if_neg (by simp), ih]

theorem lowerC_eq (c : Char) : toLowerC c = c.toLower := by
  unfold toLowerC Char.toLower
  by_cases h : 'A' ≤ c ∧ c ≤ 'Z'
  · have h' : c.val ≥ 'A'.val ∧ c.val ≤ 'Z'.val := h
    rw [if_pos h, dif_pos h']
    have h1 : 65 ≤ c.toNat := h'.1
    have h2 : c.toNat ≤ 90 := h'.2
    apply Char.ext
    apply UInt32.toNat.inj
    show (Char.ofNat (c.toNat + 32)).toNat = (c.val + ('a'.val - 'A'.val)).toNat
    have hv : (c.toNat + 32).isValidChar := .inl (by omega)
    rw [Char.ofNat, dif_pos hv]
    show c.toNat + 32 = _
    rw [UInt32.toNat_add, show ('a'.val - 'A'.val).toNat = 32 from by decide]
    show _ = (c.toNat + 32) % _
    omega
  · have h' : ¬ (c.val ≥ 'A'.val ∧ c.val ≤ 'Z'.val) := h
    rw [if_neg h, dif_neg h']

theorem caseEq_lower (a b : Str) : strcaseEq a b = true ↔ lower a = lower b := by
  have : ∀ s : Str, s.map toLowerC = lower s := fun s => List.map_congr_left fun c _ => lowerC_eq c
  rw [strcaseEq, this, this]
  simp

theorem paramByName_lower (ps : List Param) {n : String} (hn : lower n.toList = n.toList) :
    paramByName ps n = ps.find? fun p => lower p.gname = n.toList := by
  unfold paramByName
  congr 1
  funext p
  by_cases h : lower p.gname = n.toList
  · have hl := congrArg List.length h
    have hs := (caseEq_lower p.gname n.toList).2 (by rw [hn]; exact h)
    simp only [lower, List.length_map] at hl
    simp [h, hl, hs]
  · have hs : strcaseEq p.gname n.toList = false := by
      rw [← Bool.not_eq_true, caseEq_lower, hn]; exact h
    simp [h, hs]

theorem sepBoundary_of {y g : Str} (h : g = y ∧ y.head? ≠ some '"' ∨ g = '"' :: (y ++ ['"'])) : sepBoundary g = "\n--".toList ++ y := by
  rcases h with ⟨rfl, h⟩ | rfl
  · rw [sepBoundary, if_neg (fun k => h k.1)]
  · rw [sepBoundary, if_pos (by simp [List.getLast?_cons])]
    simp

theorem parts_length {sep : Str} {t : List Char} {bs : List Body} (h : IsParts sep t bs) : bs.length ≤ t.length := by
  induction h with
  | one => simp; omega
  | cons _ _ _ _ ih => simp; omega

/-- **C84**. A multipart body, with boundary `y` and any text before the first and behind the last boundary, is split into exactly its
parts. The boundary occurs nowhere else and each piece has less than 1000 zero bytes. `d` is the text from the empty line on. -/
theorem c84_multipart {ty : Str} (hty : lower ty = "multipart".toList) {st y : Str} {params : List Param} (cl : Option Str)
    (hb : ∃ p, (params.find? fun p => lower p.gname = "boundary".toList) = some p ∧ (p.gvalue = some y ∧ y.head? ≠ some '"' ∨
      p.gvalue = some ('"' :: (y ++ ['"']))))
    (hy : '\n' ∉ y) {t : List Char} {bs : List Body} (h : IsParts ("\n--".toList ++ y) t bs)
    {pre : List Char} (epi z : List Char) (hpre : ¬ ("\n--".toList ++ y) <:+: pre) (hc : pre.count NUL < 1000) {d : List Char}
    (hd : d = pre ++ t ++ "\n--".toList ++ y ++ "--".toList ++ epi) :
    msg_osip_body_parse (some ⟨some ty, some st, params⟩) cl (d ++ NUL :: z) d.length = some (OSIP_SUCCESS, bs, cl) := by
  obtain ⟨p, hp, hg⟩ := hb
  unfold msg_osip_body_parse
  simp only
  rw [if_pos ((caseEq_lower _ _).2 (by rw [hty]; decide)), paramByName_lower params (n := "boundary") (by decide), hp]
  obtain ⟨g, hgv, hs⟩ : ∃ g, p.gvalue = some g ∧ sepBoundary g = "\n--".toList ++ y := by
    rcases hg with ⟨h1, h2⟩ | h1
    · exact ⟨y, h1, sepBoundary_of (.inl ⟨rfl, h2⟩)⟩
    · exact ⟨_, h1, sepBoundary_of (.inr rfl)⟩
  simp only [hgv, hs, Option.bind_eq_bind]
  have hl := parts_length h
  have := mimeLoop_read hy z h pre epi hpre hc ((d ++ NUL :: z).length + 1) (by rw [hd]; simp; omega) []
  rw [List.drop_left]
  have e : d ++ NUL :: z = pre ++ (t ++ ('\n' :: '-' :: '-' :: y ++ ('-' :: '-' :: epi) ++ NUL :: z)) := by rw [hd]; simp
  rw [← e] at this
  have e2 : "\n--".toList ++ y = '\n' :: '-' :: '-' :: y := rfl
  rw [e2, this]
  rfl

/-! ## Plain bodies -/

theorem plain_head {eol d : List Char} (he : eol = ['\r', '\n'] ∨ eol = ['\n'] ∨ eol = ['\r'] ∧ d.head? ≠ some '\n') (z : List Char)
    (cl : Option Str) (n : Nat) :
    plainBody cl (eol ++ d ++ NUL :: z) n =
      if ((n : Int) - eol.length) % 2 ^ 64 = 0 then some (OSIP_SYNTAXERROR, [], cl)
      else if ((n : Int) - eol.length) % 2 ^ 64 < (match cl with | some v => osip_atoi (some v) % 2 ^ 64 | none => ((n : Int) - eol.length) % 2 ^ 64) then
        some (OSIP_SYNTAXERROR, [], some (match cl with | some v => v | none => intText (toInt32 (((n : Int) - eol.length) % 2 ^ 64))))
      else (memcpy (d ++ NUL :: z) (match cl with | some v => osip_atoi (some v) % 2 ^ 64 | none => ((n : Int) - eol.length) % 2 ^ 64)).bind fun tmp =>
        some (OSIP_SUCCESS, [⟨tmp, [], none⟩], some (match cl with | some v => v | none => intText (toInt32 (((n : Int) - eol.length) % 2 ^ 64)))) := by
  have hp : ∀ tmp : List Char, osip_body_parse (tmp ++ [NUL]) tmp.length = some (OSIP_SUCCESS, ⟨tmp, [], none⟩) := by
    intro tmp
    rw [osip_body_parse, memcpy, if_pos (by simp; omega)]
    simp
  rcases he with rfl | rfl | ⟨rfl, he⟩
  · simp only [plainBody, List.cons_append, List.nil_append, deref, List.head?_cons, Option.bind_eq_bind, Option.bind_some, List.drop_succ_cons,
      List.drop_zero, hp]
    rw [if_neg (by decide), if_neg (by decide), if_pos trivial, if_pos trivial]
    rfl
  · simp only [plainBody, List.cons_append, List.nil_append, deref, List.head?_cons, Option.bind_eq_bind, Option.bind_some, List.drop_succ_cons,
      List.drop_zero, hp]
    rw [if_neg (by decide), if_neg (by decide), if_neg (by decide)]
    rfl
  · obtain ⟨c, hc, hc'⟩ : ∃ c, (d ++ NUL :: z).head? = some c ∧ c ≠ '\n' := by
      cases d with
      | nil => exact ⟨NUL, rfl, by decide⟩
      | cons c d => exact ⟨c, rfl, fun h => he (by rw [h]; rfl)⟩
    simp only [plainBody, List.cons_append, List.nil_append, deref, List.head?_cons, Option.bind_eq_bind, Option.bind_some, List.drop_succ_cons,
      List.drop_zero, hp, hc]
    rw [if_neg (by decide), if_neg (by decide), if_pos trivial, if_neg hc']
    rfl

theorem toInt32_range (v : Int) : -2 ^ 31 ≤ toInt32 v ∧ toInt32 v < 2 ^ 31 := by
  unfold toInt32
  omega

/-- **C84**. A body which is not multipart is the first Content-Length bytes behind the empty line; it is missing bytes, and rejected,
exactly if there are fewer. Without Content-Length it is everything behind the empty line and Content-Length is set. -/
theorem c84_plain {ty st : Str} (hty : lower ty ≠ "multipart".toList) (params : List Param) {eol d : List Char}
    (he : eol = ['\r', '\n'] ∨ eol = ['\n'] ∨ eol = ['\r'] ∧ d.head? ≠ some '\n') (hd : d ≠ []) (hl : d.length < 2 ^ 31) (z : List Char) :
    (∀ v : Str, msg_osip_body_parse (some ⟨some ty, some st, params⟩) (some v) (eol ++ d ++ NUL :: z) (eol ++ d).length =
      some (if 0 ≤ osip_atoi (some v) ∧ osip_atoi (some v) ≤ d.length then (OSIP_SUCCESS, [⟨d.take (osip_atoi (some v)).toNat, [], none⟩], some v)
        else (OSIP_SYNTAXERROR, [], some v))) ∧
    msg_osip_body_parse (some ⟨some ty, some st, params⟩) none (eol ++ d ++ NUL :: z) (eol ++ d).length =
      some (OSIP_SUCCESS, [⟨d, [], none⟩], some (Nat.toDigits 10 d.length)) := by
  have hnm : ¬ strcaseEq ty "multipart".toList = true := by
    rw [caseEq_lower]
    intro h
    exact hty (by rw [h]; decide)
  have hlp := List.length_pos_iff.2 hd
  have hm : (((eol ++ d).length : Int) - eol.length) % 2 ^ 64 = d.length := by
    rw [Int.emod_eq_of_lt] <;> simp <;> omega
  constructor
  · intro v
    unfold msg_osip_body_parse
    simp only
    rw [if_neg hnm, plain_head he, hm, if_neg (by omega)]
    simp only
    have hr : -2 ^ 31 ≤ osip_atoi (some v) ∧ osip_atoi (some v) < 2 ^ 31 := toInt32_range _
    by_cases h0 : 0 ≤ osip_atoi (some v)
    · rw [Int.emod_eq_of_lt h0 (by omega)]
      by_cases h1 : osip_atoi (some v) ≤ d.length
      · rw [if_neg (by omega), if_pos ⟨h0, h1⟩, memcpy, if_pos ⟨h0, by simp; omega⟩, Option.bind_some, List.take_append_of_le_length (by omega)]
      · rw [if_pos (by omega), if_neg (by omega)]
    · rw [if_pos (by omega), if_neg (by omega)]
  · unfold msg_osip_body_parse
    simp only
    rw [if_neg hnm, plain_head he, hm, if_neg (by omega)]
    simp only
    rw [if_neg (by omega), memcpy, if_pos ⟨by omega, by simp; omega⟩]
    have ht : toInt32 d.length = d.length := by unfold toInt32; omega
    rw [ht, intText, if_neg (by omega)]
    simp

/-! ## Writing -/

/-- The header line which `osip_body_to_str` writes for the content type. -/
def typeLines : Option MediaType → List (Str × Str)
  | some ⟨some t, some s, ps⟩ => [("content-type".toList, ' ' :: mediaText t s ps)]
  | _ => []

/-- The header lines for the other headers. -/
def headerLines (hs : List Header) : List (Str × Str) := hs.map fun h => (capital (h.hname.getD []), ' ' :: h.hvalue.getD [])

/-- A header which `osip_header_to_str` accepts. -/
def NamedHeader (h : Header) : Prop := ∃ c n, h.hname = some (c :: n)

/-- A content type which `osip_content_type_to_str` accepts. -/
def WritableType (m : MediaType) : Prop := ∃ t s, m.type = some t ∧ m.subtype = some s ∧ ∀ p ∈ m.gen_params, p.gvalue ≠ none

theorem header_text {h : Header} (hn : NamedHeader h) :
    osip_header_to_str (some h) = some (OSIP_SUCCESS, some (capital (h.hname.getD []) ++ ':' :: ' ' :: h.hvalue.getD [])) := by
  obtain ⟨c, n, hn⟩ := hn
  obtain ⟨hname, hvalue⟩ := h
  simp only at hn
  subst hn
  simp only [osip_header_to_str]
  rw [putn_fits (by simp; omega)]
  simp only [Option.bind_eq_bind, Option.bind_some, List.nil_append, List.cons_append, capital, upper_eq, Option.getD_some]
  rfl

theorem bodyHeadersStr_run {hs : List Header} (hn : ∀ h ∈ hs, NamedHeader h) (length : Nat) (buf : Str) (hl : buf.length < length) :
    ∃ length', bodyHeadersStr hs length buf = some (OSIP_SUCCESS, length', buf ++ linesText (headerLines hs)) ∧
      (buf ++ linesText (headerLines hs)).length < length' := by
  induction hs generalizing length buf with
  | nil => exact ⟨length, by simp [bodyHeadersStr, linesText, headerLines], by simpa [linesText, headerLines] using hl⟩
  | cons h hs ih =>
    unfold bodyHeadersStr
    rw [header_text (hn h (by simp))]
    simp only [Option.bind_eq_bind, Option.bind_some]
    rw [if_neg (by simp [OSIP_SUCCESS])]
    generalize hT : capital (h.hname.getD []) ++ ':' :: ' ' :: h.hvalue.getD [] = tmp
    generalize hL : (if length < buf.length + tmp.length + 4 then length + tmp.length + 4 else length) = L
    have hL' : buf.length + tmp.length + 4 ≤ L := by
      subst hL
      split <;> omega
    rw [put_fits (by omega)]
    simp only [Option.bind_some]
    rw [put_fits (by simp; omega)]
    simp only [Option.bind_some]
    obtain ⟨L', h1, h2⟩ := ih (fun h hh => hn h (by simp [hh])) L (buf ++ tmp ++ "\r\n".toList) (by simp; omega)
    have e : buf ++ tmp ++ "\r\n".toList ++ linesText (headerLines hs) = buf ++ linesText (headerLines (h :: hs)) := by
      subst hT
      simp [linesText, headerLines]
    rw [e] at h1 h2
    exact ⟨L', h1, h2⟩

theorem bodyEnd_run (b : Body) (length : Nat) (buf : Str) (hl : buf.length < length) :
    bodyEnd b length buf = some (OSIP_SUCCESS, some (buf ++ (if b.headers ≠ [] ∨ b.content_type ≠ none then ['\r', '\n'] else []) ++ b.body)) := by
  unfold bodyEnd
  by_cases h : b.headers ≠ [] ∨ b.content_type ≠ none
  · rw [if_pos h, if_pos h]
    generalize hL : (if length < buf.length + 3 then length + 3 + b.body.length else length) = L
    have hL' : buf.length + 3 ≤ L := by
      subst hL
      split <;> omega
    simp only
    rw [put_fits (by simp; omega)]
    simp only [Option.bind_eq_bind, Option.bind_some]
    show (if _ then _ else _) = _
    generalize hL2 : (if L < (buf ++ "\r\n".toList).length + b.body.length + 4 then L + b.body.length + 4 else L) = L2
    have hL2' : (buf ++ "\r\n".toList).length + b.body.length ≤ L2 := by
      subst hL2
      split
      · simp; omega
      · omega
    rw [if_pos hL2']
    rfl
  · rw [if_neg h, if_neg h]
    simp only [Option.bind_eq_bind]
    show (if _ then _ else _) = _
    generalize hL2 : (if length < buf.length + b.body.length + 4 then length + b.body.length + 4 else length) = L2
    have hL2' : buf.length + b.body.length ≤ L2 := by
      subst hL2
      split <;> omega
    rw [if_pos hL2']
    simp

/-- **C85**. A part with data is written as its content type, its headers, an empty line and the data, whatever their lengths: the buffer
always suffices. -/
theorem c85_write {b : Body} (hd : b.body ≠ []) (hc : ∀ m ∈ b.content_type, WritableType m) (hh : ∀ h ∈ b.headers, NamedHeader h) :
    osip_body_to_str b = some (OSIP_SUCCESS, some (linesText (typeLines b.content_type ++ headerLines b.headers) ++
      (if b.headers ≠ [] ∨ b.content_type ≠ none then ['\r', '\n'] else []) ++ b.body)) := by
  have hp := List.length_pos_iff.2 hd
  unfold osip_body_to_str
  rw [if_neg (by omega)]
  split
  · rename_i hct
    obtain ⟨L, h1, h2⟩ := bodyHeadersStr_run hh (15 + b.body.length + b.headers.length * 40) [] (by simp; omega)
    simp only [Option.bind_eq_bind, h1, Option.bind_some]
    rw [if_neg (by simp [OSIP_SUCCESS]), bodyEnd_run _ _ _ h2, hct]
    rfl
  · rename_i ct hct
    obtain ⟨t, s, e1, e2, e3⟩ := hc ct hct
    obtain ⟨ty, st, ps⟩ := ct
    simp only at e1 e2 e3
    subst e1 e2
    have ht : osip_content_type_to_str (some ⟨some t, some s, ps⟩) = some (OSIP_SUCCESS, some (mediaText t s ps)) := by
      simp only [osip_content_type_to_str]
      rw [put_fits (by simp; omega)]
      simp only [Option.bind_eq_bind, Option.bind_some]
      rw [mediaParamsStr_run _ _ _ e3]
      simp [mediaText]
    simp only [Option.bind_eq_bind]
    rw [put_fits (by simp; omega)]
    simp only [Option.bind_some, ht]
    rw [if_neg (by simp [OSIP_SUCCESS])]
    generalize hM : mediaText t s ps = M at *
    generalize hL0 : 15 + b.body.length + b.headers.length * 40 = L0
    have h14 : (([] : Str) ++ "content-type: ".toList).length = 14 := rfl
    generalize hCT : ([] : Str) ++ "content-type: ".toList = CT at h14 ⊢
    generalize hL : (if L0 < CT.length + M.length + 4 then L0 + M.length + 4 else L0) = L
    have hL' : CT.length + M.length + 4 ≤ L := by
      subst hL
      split <;> omega
    rw [put_fits (by omega)]
    simp only [Option.bind_some]
    rw [put_fits (by simp; omega)]
    simp only [Option.bind_some]
    obtain ⟨L', h1, h2⟩ := bodyHeadersStr_run hh L (CT ++ M ++ "\r\n".toList) (by simp; omega)
    rw [h1]
    simp only [Option.bind_some]
    rw [if_neg (by simp [OSIP_SUCCESS]), bodyEnd_run _ _ _ h2]
    subst hCT
    simp [typeLines, linesText, hct, hM]

/-! ## Round trip -/

theorem upper_other {c d : Char} (h : c.toUpper = d) (hd : ¬ ('A' ≤ d ∧ d ≤ 'Z')) : c = d := by
  rw [← upper_eq] at h
  split at h
  · rename_i hc
    exfalso
    have h1 : 97 ≤ c.toNat := hc.1
    have h2 : c.toNat ≤ 122 := hc.2
    subst h
    apply hd
    have hv : (c.toNat - 32).isValidChar := .inl (by omega)
    have : (Char.ofNat (c.toNat - 32)).toNat = c.toNat - 32 := by
      rw [Char.ofNat, dif_pos hv]; rfl
    constructor
    · show 65 ≤ (Char.ofNat (c.toNat - 32)).toNat
      omega
    · show (Char.ofNat (c.toNat - 32)).toNat ≤ 90
      omega
  · exact h

theorem lower_upper (c : Char) : c.toUpper.toLower = c.toLower := by
  rw [← lowerC_eq, ← lowerC_eq, ← upper_eq]
  split
  · rename_i hc
    have h1 : 97 ≤ c.toNat := hc.1
    have h2 : c.toNat ≤ 122 := hc.2
    have hv : (c.toNat - 32).isValidChar := .inl (by omega)
    have e : (Char.ofNat (c.toNat - 32)).toNat = c.toNat - 32 := by
      rw [Char.ofNat, dif_pos hv]; rfl
    have g1 : 'A' ≤ Char.ofNat (c.toNat - 32) := by show 65 ≤ (Char.ofNat (c.toNat - 32)).toNat; omega
    have g2 : Char.ofNat (c.toNat - 32) ≤ 'Z' := by show (Char.ofNat (c.toNat - 32)).toNat ≤ 90; omega
    have g3 : ¬ (c ≤ 'Z') := by show ¬ (c.toNat ≤ 90); omega
    rw [toLowerC, if_pos ⟨g1, g2⟩, e, toLowerC, if_neg (fun h => g3 h.2), show c.toNat - 32 + 32 = c.toNat from by omega]
    exact Char.ofNat_toNat c
  · rfl

theorem trimmed_of {m m1 m2 : Str} {a z : Char} (ha : isBlank a = false) (hz : isBlank z = false) (e1 : m = a :: m1) (e2 : m = m2 ++ [z]) :
    Trimmed m := by
  have := trim_mid (w₁ := []) (w₂ := []) (m := m) (by simp) (by simp) ha hz e1 e2
  rw [List.nil_append, List.append_nil] at this
  exact this

theorem mediaText_trimmed {t s : Str} {ps : List Param} (h : WfMedia t s ps) : Trimmed (mediaText t s ps) := by
  obtain ⟨⟨-, t2, t3, -, -⟩, ⟨-, s2, s3, -⟩, hp⟩ := h
  obtain ⟨a, -, t', -, e, -, ha, -⟩ := trimmed_ends t3 t2
  obtain ⟨m, z, hz, e2⟩ : ∃ m z, isBlank z = false ∧ mediaText t s ps = m ++ [z] := by
    rcases List.eq_nil_or_concat ps with rfl | ⟨qs, p, rfl⟩
    · obtain ⟨-, z, -, s', -, e, -, hz⟩ := trimmed_ends s3 s2
      exact ⟨t ++ '/' :: s', z, hz, by rw [mediaText, e]; simp⟩
    · obtain ⟨⟨⟨-, -, -, -, h5⟩, -, h7⟩, h8⟩ := hp p (by simp)
      cases hv : p.gvalue with
      | none => exact absurd hv h8
      | some v =>
        obtain ⟨-, z, -, s', -, e, -, hz⟩ := trimmed_ends (h7 v hv) (wfValue_ok (h5 v hv)).2
        refine ⟨t ++ '/' :: (s ++ (qs.flatMap fun p => ';' :: ' ' :: (p.gname ++ '=' :: p.gvalue.getD [])) ++ ';' :: ' ' :: (p.gname ++ '=' :: s')), z, hz, ?_⟩
        rw [mediaText]
        simp [hv, e]
  exact trimmed_of ha hz (by rw [mediaText, e]; rfl) e2

theorem upper_blank {c : Char} (h : isBlank c = false) : isBlank c.toUpper = false := by
  have key : ∀ d, d ∈ [' ', '\t', '\r', '\n'] → c ≠ d → c.toUpper ≠ d := by
    intro d hd h1 h2
    refine h1 (upper_other h2 ?_)
    simp only [List.mem_cons, List.not_mem_nil, or_false] at hd
    rcases hd with rfl | rfl | rfl | rfl <;> decide
  simp only [isBlank, Bool.or_eq_false_iff, beq_eq_false_iff_ne, decide_eq_false_iff_not] at h ⊢
  grind

theorem capital_trimmed {n : Str} (h : Trimmed n) (h0 : n ≠ []) : Trimmed (capital n) := by
  obtain ⟨a, z, m, m', e1, e2, ha, hz⟩ := trimmed_ends h h0
  subst e1
  cases m' with
  | nil =>
    simp only [List.nil_append, List.cons.injEq] at e2
    obtain ⟨rfl, rfl⟩ := e2
    exact trimmed_of (m2 := []) (upper_blank ha) (upper_blank ha) rfl rfl
  | cons c m' =>
    simp only [List.cons_append, List.cons.injEq] at e2
    obtain ⟨rfl, rfl⟩ := e2
    exact trimmed_of (m2 := a.toUpper :: m') (upper_blank ha) hz rfl rfl

theorem capital_type (n : Str) : TypeName (capital n) ↔ TypeName n := by
  cases n with
  | nil => rfl
  | cons c n => simp only [TypeName, capital, List.take_succ_cons, lower, List.map_cons, lower_upper]

/-- A header of a part which survives. -/
structure PartHeader (n v : Str) : Prop where
  name : n ≠ [] ∧ n.Ok ∧ Trimmed n ∧ ∀ c ∈ n, c ≠ ':' ∧ c ≠ '\r' ∧ c ≠ '\n'
  other : ¬ TypeName n
  value : v.Ok ∧ Trimmed v ∧ ∀ c ∈ v, c ≠ '\r' ∧ c ≠ '\n'

/-- A content type which survives in a part. -/
def PartType (m : MediaType) : Prop :=
  ∃ t s, m.type = some t ∧ m.subtype = some s ∧ WfMedia t s m.gen_params ∧ ∀ c ∈ mediaText t s m.gen_params, c ≠ '\r' ∧ c ≠ '\n'

theorem mediaText_ok {t s : Str} {ps : List Param} (h : WfMedia t s ps) : Str.Ok (mediaText t s ps) ∧ mediaText t s ps ≠ [] := by
  obtain ⟨⟨t1, t2, -, -, -⟩, ⟨s1, -, -, -⟩, hp⟩ := h
  refine ⟨?_, by cases t <;> simp_all [mediaText]⟩
  rw [mediaText, spaced_params fun p q => (hp p q).2]
  refine ok_append t1 (ok_cons.2 ⟨by decide, ok_append s1 ?_⟩)
  apply params_ok
  intro p hp'
  obtain ⟨q, hq, rfl⟩ := List.mem_map.1 hp'
  exact spaced_text (hp q hq).1

theorem headerLines_read {hs : List Header} (h : ∀ x ∈ hs, ∃ n v, x = ⟨some n, some v⟩ ∧ PartHeader n v) :
    PartHeaders (headerLines hs) (hs.map fun x => ⟨x.hname.map capital, x.hvalue⟩) none := by
  induction hs with
  | nil => exact .nil
  | cons x hs ih =>
    obtain ⟨n, v, rfl, ⟨h1, h2, h3, h4⟩, h5, h6, h7, h8⟩ := h x (by simp)
    have ih := ih fun y hy => h y (by simp [hy])
    have hct := capital_trimmed h3 h1
    obtain ⟨a, -, m, -, e, -, ha, -⟩ := trimmed_ends h3 h1
    have hmem : ∀ c ∈ capital n, ∀ d, ¬ ('A' ≤ d ∧ d ≤ 'Z') → d ∉ n → c ≠ d := by
      subst e
      intro c hc d hd hn hcd
      rcases List.mem_cons.1 hc with rfl | hc
      · exact hn (by rw [← upper_other hcd hd]; simp)
      · exact hn (by rw [← hcd]; simp [hc])
    have pl : PartLine (capital n, ' ' :: v) := by
      refine ⟨⟨?_, fun hm => ?_, fun c hc => ⟨?_, ?_, ?_⟩⟩, ⟨?_, ?_⟩, by simp, ok_cons.2 ⟨by decide, h6⟩, ?_⟩
      · subst e; simp [capital]
      · exact hmem _ hm NUL (by decide) h2 rfl
      · exact hmem c hc ':' (by decide) (fun k => (h4 _ k).1 rfl)
      · exact hmem c hc '\r' (by decide) (fun k => (h4 _ k).2.1 rfl)
      · exact hmem c hc '\n' (by decide) (fun k => (h4 _ k).2.2 rfl)
      · subst e
        intro k
        simp only [capital, List.head?_cons, Option.some.injEq] at k
        rw [upper_other k (by decide)] at ha
        exact absurd ha (by decide)
      · subst e
        intro k
        simp only [capital, List.head?_cons, Option.some.injEq] at k
        rw [upper_other k (by decide)] at ha
        exact absurd ha (by decide)
      · intro c hc
        rcases List.mem_cons.1 hc with rfl | hc
        · decide
        · exact h8 c hc
    have e1 : (⟨some (capital n), some v⟩ : Header) = ⟨some (trim (capital n)), some (trim (' ' :: v))⟩ := by
      rw [hct, trim_space, h7]
    have := PartHeaders.header pl (by rw [hct, capital_type]; exact h5) ih
    rw [← e1] at this
    exact this

theorem part_written {b : Body} (hd : b.body ≠ []) (hc : ∀ m ∈ b.content_type, PartType m)
    (hh : ∀ x ∈ b.headers, ∃ n v, x = ⟨some n, some v⟩ ∧ PartHeader n v) (hne : b.headers ≠ [] ∨ b.content_type ≠ none) :
    ∃ text, osip_body_to_str b = some (OSIP_SUCCESS, some text) ∧
      IsPart text { b with headers := b.headers.map fun x => ⟨x.hname.map capital, x.hvalue⟩ } := by
  refine ⟨_, c85_write hd ?_ ?_, ?_⟩
  · intro m hm
    obtain ⟨t, s, e1, e2, hw, -⟩ := hc m hm
    exact ⟨t, s, e1, e2, fun p hp => (hw.params p hp).2⟩
  · intro x hx
    obtain ⟨n, v, rfl, ⟨h1, -⟩, -⟩ := hh x hx
    cases n with
    | nil => exact absurd rfl h1
    | cons c n => exact ⟨c, n, rfl⟩
  · rw [if_pos hne]
    have hr := headerLines_read hh
    have e : ∀ ls : List (Str × Str), linesText ls ++ ['\r', '\n'] ++ b.body = linesText ls ++ '\r' :: '\n' :: b.body := by simp
    rw [e]
    obtain ⟨body, headers, ct⟩ := b
    simp only at *
    cases ct with
    | none =>
      refine IsPart.mk hr ?_ hd
      intro h0
      rcases hne with h | h
      · exact h (by simpa [typeLines, headerLines] using h0)
      · exact h rfl
    | some m =>
      obtain ⟨t, s, e1, e2, hw, hl⟩ := hc m rfl
      obtain ⟨ty, st, ps⟩ := m
      simp only at e1 e2 hw hl
      subst e1 e2
      obtain ⟨ho, hne'⟩ := mediaText_ok hw
      have pl : PartLine ("content-type".toList, ' ' :: mediaText t s ps) := by
        refine ⟨by show "content-type".toList ≠ [] ∧ Str.Ok "content-type".toList ∧ ∀ c ∈ "content-type".toList, c ≠ ':' ∧ c ≠ '\r' ∧ c ≠ '\n'; decide, 
          by show "content-type".toList.head? ≠ some ' ' ∧ "content-type".toList.head? ≠ some '\t'; decide, by simp, ok_cons.2 ⟨by decide, ho⟩, ?_⟩
        intro c hc
        rcases List.mem_cons.1 hc with rfl | hc
        · decide
        · exact hl c hc
      have := PartHeaders.type pl (by decide) hw (by rw [trim_space, mediaText_trimmed hw]) hr
      exact IsPart.mk this (by simp [typeLines]) hd

/-- **C85**. A part with a content type or a header is written and read back; only the first letter of header names becomes a capital
one. The data may be any bytes. -/
theorem c85_round_trip {b : Body} (hd : b.body ≠ []) (hc : ∀ m ∈ b.content_type, PartType m)
    (hh : ∀ x ∈ b.headers, ∃ n v, x = ⟨some n, some v⟩ ∧ PartHeader n v) (hne : b.headers ≠ [] ∨ b.content_type ≠ none) :
    ∃ text, osip_body_to_str b = some (OSIP_SUCCESS, some text) ∧
      osip_body_parse_mime (text ++ [NUL]) text.length =
        some (OSIP_SUCCESS, { b with headers := b.headers.map fun x => ⟨x.hname.map capital, x.hvalue⟩ }) := by
  obtain ⟨text, h1, h2⟩ := part_written hd hc hh hne
  exact ⟨text, h1, c84_part h2⟩

/-! ## Examples -/

example : IsPart "A: 1\r\n\r\nhello".toList ⟨"hello".toList, [⟨some "A".toList, some "1".toList⟩], none⟩ :=
  IsPart.mk (ls := [("A".toList, " 1".toList)])
    (.header ⟨by decide, by decide, by decide⟩ (by decide) .nil) (by simp) (by decide)

/-- Two parts, a quoted boundary, text before and behind. -/
example : msg_osip_body_parse (some ⟨some "Multipart".toList, some "mixed".toList, [⟨"Boundary".toList, some "\"b\"".toList⟩]⟩) none
    ("\r\npre\r\n--b\r\nA: 1\r\n\r\nhello\r\n--b\r\nContent-Type: text/plain\r\n\r\n\r\nx\x00y\r\n--b--\r\nend".toList ++ [NUL]) 82 =
    some (OSIP_SUCCESS, [⟨"hello".toList, [⟨some "A".toList, some "1".toList⟩], none⟩,
      ⟨"\r\nx\x00y".toList, [], some ⟨some "text".toList, some "plain".toList, []⟩⟩], none) := by decide +kernel

/-- A header name which begins with `content-type` is taken for the content type. -/
example : osip_body_parse_mime (Str.buf "Content-Type-X: text/plain\r\n\r\nx".toList) 31 =
    some (OSIP_SUCCESS, ⟨"x".toList, [], some ⟨some "text".toList, some "plain".toList, []⟩⟩) := by decide +kernel

example : PartHeader "x-a".toList "1 2".toList :=
  ⟨⟨by decide, by decide, by simp [Trimmed]; decide, by decide⟩, by decide, by decide, by simp [Trimmed]; decide, by decide⟩

example : osip_body_to_str ⟨"x\x00".toList, [⟨some "x-a".toList, some "1".toList⟩], some ⟨some "a".toList, some "b".toList, []⟩⟩ =
    some (OSIP_SUCCESS, some "content-type: a/b\r\nX-a: 1\r\n\r\nx\x00".toList) := by decide +kernel

end Osip
