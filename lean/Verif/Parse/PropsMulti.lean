import Verif.Parse.Multi
import Verif.Parse.PropsCase

/-!
# C46: comma-separated header values
-/

set_option autoImplicit false

namespace Osip

/-! ## Specification: the grammar of header values -/

/-- The inside of a quoted string without escaped quotes: plain characters and escape pairs. -/
inductive QuotedText : Str → Prop
  | nil : QuotedText []
  | plain {c : Char} {s : Str} : c ≠ '"' → c ≠ '\\' → QuotedText s → QuotedText (c :: s)
  | pair {c : Char} {s : Str} : c ≠ '"' → QuotedText s → QuotedText ('\\' :: c :: s)

/-- The URI schemes which are recognised. -/
def schemes : List String := ["sip:", "sips:", "http:", "https:", "tel:"]

/-- One piece of a header value. -/
inductive Piece : Str → Prop
  /-- A character which is no comma, quote or bracket. -/
  | char {c : Char} : c ≠ ',' → c ≠ '"' → c ≠ '<' → c ≠ '>' → Piece [c]
  /-- A quoted string. It may contain commas and brackets. -/
  | quoted {q : Str} : QuotedText q → Piece ('"' :: q ++ ['"'])
  /-- A URI in angle brackets. It may contain commas. -/
  | uri {u : Str} {sc : String} : sc ∈ schemes → lower sc.toList <+: lower u → '>' ∉ u → '"' ∉ u →
      Piece ('<' :: u ++ ['>'])

/-- One value of a header: a sequence of pieces. -/
inductive Element : Str → Prop
  | nil : Element []
  | cons {p e : Str} : Piece p → Element e → Element (p ++ e)

/-- The values separated by commas. -/
def commaJoin : List Str → Str
  | [] => []
  | [e] => e
  | e :: es => e ++ ',' :: commaJoin es

/-- Values are stored one after the other until storing one fails. -/
def storeAll (set : List Str → Str → Int) : List Str → List Str → Int × List Str
  | acc, [] => (0, acc)
  | acc, v :: vs => if set acc v ≠ 0 then (set acc v, v :: acc) else storeAll set (v :: acc) vs

/-! ## Proof -/

theorem quoted_no_quote {q : Str} (h : QuotedText q) : '"' ∉ q := by
  induction h with
  | nil => simp
  | plain h1 h2 _ ih => simp [Ne.symm h1, ih]
  | pair h _ ih => simp [Ne.symm h, ih]

variable {set : List Str → Str → Int}

theorem split_quote (beg t : List Char) (iq iu : Bool) (acc : List Str) :
    splitLoop set beg ('"' :: t) iq iu acc = splitLoop set beg t (!iq) iu acc := by
  simp [splitLoop]

theorem split_quoted {q : Str} (hq : '"' ∉ q) (hok : q.Ok) (beg rest : List Char) (acc : List Str) :
    splitLoop set beg (q ++ rest) true false acc = splitLoop set beg rest true false acc := by
  induction q with
  | nil => rfl
  | cons c q ih =>
    have hc : c ≠ '"' := by rintro rfl; exact hq (by simp)
    have hn : c ≠ NUL := (ok_cons.1 hok).1
    have : splitLoop set beg (c :: (q ++ rest)) true false acc = splitLoop set beg (q ++ rest) true false acc := by
      simp [splitLoop, hc, hn]
    rw [List.cons_append, this, ih (by intro h; apply hq; simp [h]) (ok_cons.1 hok).2]

theorem split_uri {u : Str} (hq : '"' ∉ u) (hg : '>' ∉ u) (hok : u.Ok) (beg rest : List Char) (acc : List Str) :
    splitLoop set beg (u ++ rest) false true acc = splitLoop set beg rest false true acc := by
  induction u with
  | nil => rfl
  | cons c q ih =>
    have hc : c ≠ '"' := by rintro rfl; exact hq (by simp)
    have hg' : c ≠ '>' := by rintro rfl; exact hg (by simp)
    have hn : c ≠ NUL := (ok_cons.1 hok).1
    have : splitLoop set beg (c :: (q ++ rest)) false true acc = splitLoop set beg (q ++ rest) false true acc := by
      simp [splitLoop, hc, hn, hg']
    rw [List.cons_append, this, ih (by intro h; apply hq; simp [h]) (by intro h; apply hg; simp [h]) (ok_cons.1 hok).2]

theorem caseStarts_spec {s : Str} (hs : s.Ok) (r : List Char) {lit : String} (hl : Str.Ok lit.toList) :
    ∃ b, caseStarts (s ++ NUL :: r) lit = some b ∧ (b = true ↔ lower lit.toList <+: lower s) := by
  obtain ⟨k, h1, h2⟩ := c57_strncasecmp hs hl r [] lit.toList.length
  have e : lit.toList ++ [NUL] = Str.buf lit.toList := rfl
  rw [e] at h1
  refine ⟨k == 0, by simp only [caseStarts, h1, Option.bind_eq_bind, Option.bind_some]; rfl, ?_⟩
  rw [beq_iff_eq, h2, prefix_iff_take]
  simp only [lower, List.take_length, List.length_map, List.map_take]

theorem opensUri_known {u rest : Str} {r : List Char} (hu : u.Ok) (hr : rest.Ok) {sc : String} (hsc : sc ∈ schemes)
    (hp : lower sc.toList <+: lower u) : opensUri ('<' :: (u ++ '>' :: (rest ++ NUL :: r))) = some true := by
  have hok : Str.Ok (u ++ '>' :: rest) := ok_append hu (ok_cons.2 ⟨by decide, hr⟩)
  have e : u ++ '>' :: (rest ++ NUL :: r) = (u ++ '>' :: rest) ++ NUL :: r := by simp
  have hp' : lower sc.toList <+: lower (u ++ '>' :: rest) := by
    refine hp.trans ?_
    simp only [lower, List.map_append]
    exact List.prefix_append _ _
  obtain ⟨b1, h1, g1⟩ := caseStarts_spec hok r (lit := "sip:") (by decide)
  obtain ⟨b2, h2, g2⟩ := caseStarts_spec hok r (lit := "sips:") (by decide)
  obtain ⟨b3, h3, g3⟩ := caseStarts_spec hok r (lit := "http:") (by decide)
  obtain ⟨b4, h4, g4⟩ := caseStarts_spec hok r (lit := "https:") (by decide)
  obtain ⟨b5, h5, g5⟩ := caseStarts_spec hok r (lit := "tel:") (by decide)
  have hgt : ∃ x, cstrchr '>' ('<' :: ((u ++ '>' :: rest) ++ NUL :: r)) = some (some x) := by
    have hok' : Str.Ok ('<' :: (u ++ '>' :: rest)) := ok_cons.2 ⟨by decide, hok⟩
    rcases cstrchr_cases hok' (c := '>') (by decide) r with ⟨h, _⟩ | ⟨a, b, _, _, h⟩
    · exact absurd (by simp) h
    · exact ⟨_, h⟩
  obtain ⟨x, hx⟩ := hgt
  have hany : b1 = true ∨ b2 = true ∨ b3 = true ∨ b4 = true ∨ b5 = true := by
    simp only [schemes, List.mem_cons, List.not_mem_nil, or_false] at hsc
    rcases hsc with rfl | rfl | rfl | rfl | rfl
    · exact .inl (g1.2 hp')
    · exact .inr (.inl (g2.2 hp'))
    · exact .inr (.inr (.inl (g3.2 hp')))
    · exact .inr (.inr (.inr (.inl (g4.2 hp'))))
    · exact .inr (.inr (.inr (.inr (g5.2 hp'))))
  rw [e]
  simp only [opensUri, List.drop_succ_cons, List.drop_zero, h1, h2, h3, h4, h5, hx, Option.bind_eq_bind, Option.bind_some]
  cases b1 <;> cases b2 <;> cases b3 <;> cases b4 <;> cases b5 <;> simp_all

theorem split_piece {p : Str} (hp : Piece p) (hok : p.Ok) (beg : List Char) {rest : Str} (hr : rest.Ok)
    (r : List Char) (acc : List Str) :
    splitLoop set beg (p ++ (rest ++ NUL :: r)) false false acc = splitLoop set beg (rest ++ NUL :: r) false false acc := by
  cases hp with
  | @char c h1 h2 h3 h4 =>
    have hn : c ≠ NUL := (ok_cons.1 hok).1
    simp [splitLoop, h1, h2, h3, h4, hn]
  | @quoted q hq =>
    have hqok : Str.Ok q := (ok_append_iff.1 (ok_cons.1 hok).2).1
    rw [List.append_assoc, List.cons_append, split_quote, Bool.not_false, split_quoted (quoted_no_quote hq) hqok,
      List.cons_append, List.nil_append, split_quote, Bool.not_true]
  | @uri u sc hsc hpre hg hq =>
    have huok : Str.Ok u := (ok_append_iff.1 (ok_cons.1 hok).2).1
    have h1 := opensUri_known (r := r) huok hr hsc hpre
    have e : '<' :: u ++ ['>'] ++ (rest ++ NUL :: r) = '<' :: (u ++ '>' :: (rest ++ NUL :: r)) := by simp
    have step : splitLoop set beg ('<' :: (u ++ '>' :: (rest ++ NUL :: r))) false false acc =
        splitLoop set beg (u ++ '>' :: (rest ++ NUL :: r)) false true acc := by
      rw [splitLoop]
      simp [h1]
    rw [e, step, split_uri hq hg huok]
    simp [splitLoop]

theorem split_element {e : Str} (he : Element e) (hok : e.Ok) (beg : List Char) {rest : Str} (hr : rest.Ok)
    (r : List Char) (acc : List Str) :
    splitLoop set beg (e ++ (rest ++ NUL :: r)) false false acc = splitLoop set beg (rest ++ NUL :: r) false false acc := by
  induction he with
  | nil => rfl
  | @cons p e hp he ih =>
    have h := ok_append_iff.1 hok
    rw [List.append_assoc]
    have : e ++ (rest ++ NUL :: r) = (e ++ rest) ++ NUL :: r := by simp
    rw [this, split_piece hp h.1 beg (ok_append h.2 hr), ← this, ih h.2]

theorem split_end {e : Str} (hok : e.Ok) (r : List Char) (acc : List Str) :
    splitLoop set (e ++ NUL :: r) (NUL :: r) false false acc =
      some (storeAll set acc (([e].filter (· ≠ [])).map trim)) := by
  have h1 : NUL ≠ '"' := by decide
  have h2 : NUL ≠ '<' := by decide
  have h3 : NUL ≠ '>' := by decide
  cases e with
  | nil => simp [splitLoop, deref, storeAll, h1, h2, h3]
  | cons c e =>
    have hn : c ≠ NUL := (ok_cons.1 hok).1
    have hd : pdiff (NUL :: r) (c :: e ++ NUL :: r) = ((c :: e).length : Int) := by simp [pdiff]; omega
    have hc := clrncpy_at hok (b := []) (by simp [Str.Ok]) r rfl
    simp only [List.nil_append] at hc
    rw [splitLoop]
    simp only [if_neg h1, if_neg h2, if_neg h3, true_or, if_true, Bool.not_false, Bool.and_self, hd, hc]
    simp only [List.cons_append, deref, List.head?_cons, if_neg hn]
    rw [if_neg (by simp; omega)]
    simp only [storeAll, ne_eq, reduceCtorEq, not_false_eq_true, decide_true, List.filter_cons_of_pos,
      List.filter_nil, List.map_cons, List.map_nil]
    split <;> simp_all

theorem split_comma {e : Str} (hok : e.Ok) {rest : Str} (hr : rest.Ok) (r : List Char) (acc : List Str) :
    splitLoop set (e ++ (',' :: rest ++ NUL :: r)) (',' :: rest ++ NUL :: r) false false acc =
      (if e = [] then splitLoop set (rest ++ NUL :: r) (rest ++ NUL :: r) false false acc
       else if set acc (trim e) ≠ 0 then some (set acc (trim e), trim e :: acc)
       else splitLoop set (rest ++ NUL :: r) (rest ++ NUL :: r) false false (trim e :: acc)) := by
  have h1 : ',' ≠ '"' := by decide
  have h2 : ',' ≠ '<' := by decide
  have h3 : ',' ≠ '>' := by decide
  have h4 : ',' ≠ NUL := by decide
  rw [List.cons_append, splitLoop]
  simp only [if_neg h1, if_neg h2, if_neg h3, or_true, if_true, if_neg h4, Bool.not_false, Bool.and_self]
  cases e with
  | nil => simp [deref, pdiff, h4]
  | cons c e =>
    have hn : c ≠ NUL := (ok_cons.1 hok).1
    have hd : pdiff (',' :: (rest ++ NUL :: r)) (c :: e ++ ',' :: (rest ++ NUL :: r)) = ((c :: e).length : Int) := by
      simp [pdiff]; omega
    have hc := clrncpy_at hok (b := ',' :: rest) (ok_cons.2 ⟨by decide, hr⟩) r rfl
    simp only [List.cons_append] at hc hd
    simp only [List.cons_append, hd, deref, List.head?_cons, if_neg hn, hc]
    rw [if_neg (by simp; omega)]
    simp

theorem storeAll_step (acc : List Str) (e : Str) (es : List Str) :
    storeAll set acc (((e :: es).filter (· ≠ [])).map trim) =
      (if e = [] then storeAll set acc ((es.filter (· ≠ [])).map trim)
       else if set acc (trim e) ≠ 0 then (set acc (trim e), trim e :: acc)
       else storeAll set (trim e :: acc) ((es.filter (· ≠ [])).map trim)) := by
  by_cases h : e = []
  · simp [h]
  · simp only [ne_eq, h, not_false_eq_true, decide_true, List.filter_cons_of_pos, List.map_cons, storeAll, if_false]

theorem split_all {es : List Str} (hne : es ≠ []) (hes : ∀ e ∈ es, Element e ∧ e.Ok) (r : List Char) (acc : List Str) :
    splitLoop set (commaJoin es ++ NUL :: r) (commaJoin es ++ NUL :: r) false false acc =
      some (storeAll set acc ((es.filter (· ≠ [])).map trim)) := by
  induction es generalizing acc with
  | nil => exact absurd rfl hne
  | cons e es ih =>
    obtain ⟨he, hok⟩ := hes e (by simp)
    cases es with
    | nil =>
      simp only [commaJoin]
      have := split_element (set := set) he hok (e ++ NUL :: r) (rest := []) (by simp [Str.Ok]) r acc
      simp only [List.nil_append] at this
      rw [this, split_end hok]
    | cons e2 es =>
      have ih := ih (by simp) (fun x hx => hes x (by simp [hx]))
      have hjok : ∀ {l : List Str}, (∀ e ∈ l, Element e ∧ e.Ok) → Str.Ok (commaJoin l) := by
        intro l hl
        induction l with
        | nil => simp [commaJoin, Str.Ok]
        | cons a l ihl =>
          cases l with
          | nil => exact (hl a (by simp)).2
          | cons b l =>
            exact ok_append (hl a (by simp)).2 (ok_cons.2 ⟨by decide, ihl (fun x hx => hl x (by simp [hx]))⟩)
      have hok2 : Str.Ok (commaJoin (e2 :: es)) := hjok (fun x hx => hes x (by simp [hx]))
      have hcj : commaJoin (e :: e2 :: es) = e ++ ',' :: commaJoin (e2 :: es) := rfl
      rw [hcj, List.append_assoc]
      rw [split_element he hok _ (rest := ',' :: commaJoin (e2 :: es)) (ok_cons.2 ⟨by decide, hok2⟩),
        split_comma hok hok2, storeAll_step]
      split
      · exact ih acc
      · split
        · rfl
        · exact ih _

/-- The headers of which RFC 3261, RFC 3515 and RFC 3892 allow one value only, or whose values contain commas
themselves, with their compact forms. -/
def singleValued : List String :=
  ["authentication-info", "authorization", "b", "call-id", "cseq", "date", "expires", "f", "from",
   "i", "organization", "proxy-authenticate", "proxy-authentication-info", "proxy-authorization",
   "r", "refer-to", "referred-by", "s", "server", "subject", "t", "to", "user-agent",
   "www-authenticate"]

theorem singleValued_iff (h : Str) : h ∈ singleHeaders.map String.toList ↔ h ∈ singleValued.map String.toList := by
  constructor <;> (revert h; decide +kernel)

/-- **C46** for values in which no quoted string contains an escaped quote and brackets only enclose URIs
of a recognised scheme. For every list of at least two such values, `osip_message_set_multiple_header`
stores, for a header which may have several values, exactly the non-empty ones, trimmed and in order,
up to the first which cannot be stored. -/
theorem c46_split_partial {hname : Str} (hn : hname ∉ singleValued.map String.toList) {es : List Str}
    (h2 : 2 ≤ es.length) (hes : ∀ e ∈ es, Element e ∧ e.Ok) (r : List Char) (set : List Str → Str → Int) :
    set_multiple_header set hname (commaJoin es ++ NUL :: r) =
      some (storeAll set [] ((es.filter (· ≠ [])).map trim)) := by
  rw [← singleValued_iff] at hn
  obtain ⟨e, e2, es, rfl⟩ : ∃ e e2 es', es = e :: e2 :: es' := by
    match es, h2 with
    | [], h => simp at h
    | [_], h => simp at h
    | e :: e2 :: es', _ => exact ⟨e, e2, es', rfl⟩
  have hjok : ∀ {l : List Str}, (∀ e ∈ l, Element e ∧ e.Ok) → Str.Ok (commaJoin l) := by
    intro l hl
    induction l with
    | nil => simp [commaJoin, Str.Ok]
    | cons a l ihl =>
      cases l with
      | nil => exact (hl a (by simp)).2
      | cons b l =>
        exact ok_append (hl a (by simp)).2 (ok_cons.2 ⟨by decide, ihl (fun x hx => hl x (by simp [hx]))⟩)
  have hcomma : ∃ x, cstrchr ',' (commaJoin (e :: e2 :: es) ++ NUL :: r) = some (some x) := by
    rcases cstrchr_cases (hjok hes) (c := ',') (by decide) r with ⟨h, _⟩ | ⟨a, b, _, _, h⟩
    · exact absurd (by simp [commaJoin]) h
    · exact ⟨_, h⟩
  obtain ⟨x, hx⟩ := hcomma
  simp only [set_multiple_header, hx, Option.bind_eq_bind, Option.bind_some, Option.isNone_some, Bool.false_eq_true,
    hn, or_self, if_false]
  exact split_all (by simp) hes r []

/-- **C46**. A value without commas, and every value of a header which has only one, is stored as it is. -/
theorem c46_single {hname v : Str} (hv : v.Ok) (h : ',' ∉ v ∨ hname ∈ singleValued.map String.toList) (r : List Char)
    (set : List Str → Str → Int) :
    set_multiple_header set hname (v ++ NUL :: r) = some (set [] v, [v]) := by
  rw [← singleValued_iff] at h
  have hs : ∀ i : Int, (if i ≠ 0 then i else 0) = i := by intro i; split <;> omega
  rcases cstrchr_cases hv (c := ',') (by decide) r with ⟨hno, hc⟩ | ⟨a, b, e, _, hc⟩
  · simp only [set_multiple_header, hc, Option.bind_eq_bind, Option.bind_some, Option.isNone_none, true_or, if_true,
      cstr_at hv, hs]
    rfl
  · have h' : hname ∈ singleHeaders.map String.toList := by
      rcases h with h | h
      · exact absurd (by rw [e]; simp) h
      · exact h
    simp only [set_multiple_header, hc, Option.bind_eq_bind, Option.bind_some, h', or_true, if_true,
      cstr_at hv, hs]
    rfl

theorem opensUri_some {s : Str} (hs : s.Ok) (r : List Char) : ∃ b, opensUri ('<' :: (s ++ NUL :: r)) = some b := by
  obtain ⟨b1, h1, -⟩ := caseStarts_spec hs r (lit := "sip:") (by decide)
  obtain ⟨b2, h2, -⟩ := caseStarts_spec hs r (lit := "sips:") (by decide)
  obtain ⟨b3, h3, -⟩ := caseStarts_spec hs r (lit := "http:") (by decide)
  obtain ⟨b4, h4, -⟩ := caseStarts_spec hs r (lit := "https:") (by decide)
  obtain ⟨b5, h5, -⟩ := caseStarts_spec hs r (lit := "tel:") (by decide)
  have hx : ∃ x, cstrchr '>' ('<' :: (s ++ NUL :: r)) = some x := by
    have hok' : Str.Ok ('<' :: s) := ok_cons.2 ⟨by decide, hs⟩
    rcases cstrchr_cases hok' (c := '>') (by decide) r with ⟨_, h⟩ | ⟨a, b, _, _, h⟩
    · exact ⟨_, h⟩
    · exact ⟨_, h⟩
  obtain ⟨x, hx⟩ := hx
  simp only [opensUri, List.drop_succ_cons, List.drop_zero, h1, h2, h3, h4, h5, hx, Option.bind_eq_bind, Option.bind_some]
  cases b1 <;> cases b2 <;> cases b3 <;> cases b4 <;> cases b5 <;> simp

theorem split_some (s : Str) : ∀ {a : Str} (iq iu : Bool) (acc : List Str), a.Ok → s.Ok → ∀ r : List Char,
    ∃ x, splitLoop set (a ++ (s ++ NUL :: r)) (s ++ NUL :: r) iq iu acc = some x := by
  induction s with
  | nil =>
    intro a iq iu acc ha hs r
    have h1 : NUL ≠ '"' := by decide
    have h2 : NUL ≠ '<' := by decide
    have h3 : NUL ≠ '>' := by decide
    have h := split_end (set := set) ha r acc
    refine ⟨_, Eq.trans ?_ h⟩
    simp only [List.nil_append, splitLoop, if_neg h1, if_neg h2, if_neg h3, true_or, if_true]
  | cons c s ih =>
    intro a iq iu acc ha hs r
    obtain ⟨hc, hs'⟩ := ok_cons.1 hs
    have e : a ++ (c :: s ++ NUL :: r) = (a ++ [c]) ++ (s ++ NUL :: r) := by simp
    have hac : Str.Ok (a ++ [c]) := ok_append ha (ok_cons.2 ⟨hc, by simp [Str.Ok]⟩)
    have hstay : ∀ iq iu acc, ∃ x, splitLoop set (a ++ (c :: s ++ NUL :: r)) (s ++ NUL :: r) iq iu acc = some x := by
      intro iq iu acc; rw [e]; exact ih iq iu acc hac hs' r
    have hnew : ∀ iq iu acc, ∃ x, splitLoop set (s ++ NUL :: r) (s ++ NUL :: r) iq iu acc = some x := by
      intro iq iu acc
      have := ih (a := []) iq iu acc (by simp [Str.Ok]) hs' r
      simpa using this
    by_cases h1 : c = '"'
    · rw [List.cons_append, splitLoop, if_pos h1]; exact hstay _ _ _
    · by_cases h2 : c = '<'
      · subst h2
        rw [List.cons_append, splitLoop, if_neg h1, if_pos rfl]
        split
        · obtain ⟨b, hb⟩ := opensUri_some hs' r
          rw [hb]; exact hstay _ _ _
        · exact hstay _ _ _
      · by_cases h3 : c = '>'
        · rw [List.cons_append, splitLoop, if_neg h1, if_neg h2, if_pos h3]; exact hstay _ _ _
        · by_cases h4 : c = ','
          · subst h4
            by_cases hst : (!iq && !iu) = true
            · have hiq : iq = false ∧ iu = false := by revert hst; cases iq <;> cases iu <;> simp
              obtain ⟨rfl, rfl⟩ := hiq
              rw [split_comma ha hs']
              split
              · exact hnew _ _ _
              · split
                · exact ⟨_, rfl⟩
                · exact hnew _ _ _
            · rw [List.cons_append, splitLoop, if_neg h1, if_neg h2, if_neg h3, if_pos (.inr rfl)]
              simp only [if_neg hc, hst, Bool.false_eq_true, if_false]
              exact hstay _ _ _
          · rw [List.cons_append, splitLoop, if_neg h1, if_neg h2, if_neg h3, if_neg (by simp [hc, h4])]
            exact hstay _ _ _

/-- **C46**. For every header name and every value whatsoever, splitting terminates and stays inside the
value. -/
theorem c46_in_bounds (set : List Str → Str → Int) (hname : Str) {v : Str} (hv : v.Ok) (r : List Char) :
    ∃ x, set_multiple_header set hname (v ++ NUL :: r) = some x := by
  have hc : ∃ x, cstrchr ',' (v ++ NUL :: r) = some x := by
    rcases cstrchr_cases hv (c := ',') (by decide) r with ⟨_, h⟩ | ⟨a, b, _, _, h⟩ <;> exact ⟨_, h⟩
  obtain ⟨x, hx⟩ := hc
  simp only [set_multiple_header, hx, Option.bind_eq_bind, Option.bind_some]
  split
  · simp [cstr_at hv]
  · have := split_some (set := set) v (a := []) false false [] (by simp [Str.Ok]) hv r
    simpa using this

/-- **C46** is violated: a quoted string with an escaped quote is split at its comma. -/
theorem c46_violated : set_multiple_header (fun _ _ => 0) "contact".toList
      (Str.buf "\"a\\\",b\" <sip:x>".toList) =
    some (0, ["b\" <sip:x>".toList, "\"a\\\"".toList]) := by decide +kernel

/-- **C46** is violated: a URI of another scheme is split at its comma. -/
theorem c46_scheme_violated : set_multiple_header (fun _ _ => 0) "contact".toList
      (Str.buf "<urn:a,b>".toList) = some (0, ["b>".toList, "<urn:a".toList]) := by decide +kernel

/-! ## Examples -/

example : Element "\"a,b\" <sip:x,y>;q=1".toList := by
  have hc : ∀ {c : Char} {e : Str}, (c ≠ ',' ∧ c ≠ '"' ∧ c ≠ '<' ∧ c ≠ '>') → Element e → Element (c :: e) :=
    fun h he => .cons (p := [_]) (.char h.1 h.2.1 h.2.2.1 h.2.2.2) he
  have hq : QuotedText "a,b".toList :=
    .plain (by decide) (by decide) (.plain (by decide) (by decide) (.plain (by decide) (by decide) .nil))
  have hu : Piece ('<' :: "sip:x,y".toList ++ ['>']) :=
    .uri (sc := "sip:") (by decide) (by decide) (by decide) (by decide)
  exact .cons (.quoted hq) (hc (by decide) (.cons hu (hc (by decide) (hc (by decide) (hc (by decide) (hc (by decide) .nil))))))
example : set_multiple_header (fun _ _ => 0) "contact".toList
      (Str.buf "\"a,b\" <sip:x,y>;q=1,, <SIPS:z> , c".toList) =
    some (0, ["c".toList, "<SIPS:z>".toList, "\"a,b\" <sip:x,y>;q=1".toList]) := by decide +kernel
example : set_multiple_header (fun _ v => if v = "b".toList then -5 else 0) "contact".toList
      (Str.buf "a,b,c".toList) = some (-5, ["b".toList, "a".toList]) := by decide +kernel
example : set_multiple_header (fun _ _ => 0) "subject".toList (Str.buf "a, b".toList) = some (0, ["a, b".toList]) := by
  decide +kernel

end Osip
