import Verif.Parse.Auth
import Verif.Parse.PropsCase
import Verif.Parse.PropsFrom

/-!
# C80, C81: challenges and credentials
-/

set_option autoImplicit false

namespace Osip

/-! ## Specification -/

/-- A directive `name=value` with blanks before it. -/
structure Directive where
  lead : Str := []
  name : Str
  value : Str

def Directive.text (d : Directive) : Str := d.lead ++ d.name ++ '=' :: d.value

/-- Directives separated by commas. -/
def dirsText : List Directive → Str
  | [] => []
  | d :: ds => d.text ++ ds.flatMap fun d => ',' :: d.text

/-- A quoted string. -/
def IsQuoted (v : Str) : Prop := ∃ body, QText body ∧ body.Ok ∧ v = '"' :: (body ++ ['"'])

/-- A token, or a quoted string without comma in its place. -/
def IsToken (v : Str) : Prop := v ≠ [] ∧ v.Ok ∧ Trimmed v ∧ ',' ∉ v ∧ ('"' ∉ v ∨ IsQuoted v ∧ v ≠ "\"\"".toList)

/-- The characters that end a name. -/
def nameEnds : List Char := [' ', '\t', ',', '=', '"', '\\', '\n', '\r', NUL]

/-- A directive a reader with the table `T` understands or bypasses. -/
structure WfDirective (T : List (DirKind × Str)) (d : Directive) : Prop where
  lead : ∀ c ∈ d.lead, c = ' ' ∨ c = '\t'
  name : d.name ≠ [] ∧ ∀ c ∈ d.name, c ∉ nameEnds
  value : IsQuoted d.value ∨ IsToken d.value
  /-- A known directive has the right kind of value. -/
  kind : ∀ k n, (k, n) ∈ T → lower n = lower d.name → match k with | .quoted => IsQuoted d.value | .token => IsToken d.value
  /-- The name of a directive with a token is not the beginning of a longer name. -/
  longer : ∀ n, (DirKind.token, n) ∈ T → lower n <+: lower d.name → lower n = lower d.name
  /-- `__osip_token_set` takes less than six characters for the end of the header. -/
  long : 6 ≤ d.name.length + 1 + d.value.length

/-- The value a field gets: that of the first directive with its name and a value which is not empty. -/
def dirValue (ds : List Directive) (n : Str) : Option Str :=
  (ds.find? fun d => decide (lower n = lower d.name) && decide (d.value ≠ "\"\"".toList)).map (·.value)

/-- The fields after reading. -/
def dirFields (T : List (DirKind × Str)) (ds : List Directive) : Fields :=
  fun n => if n ∈ T.map (·.2) then dirValue ds n else none

/-! ## Lemmas -/

/-- The directives after the first. -/
def moreText (ds : List Directive) : Str := ds.flatMap fun d => ',' :: d.text

/-- The names of a table. -/
structure GoodTable (T : List (DirKind × Str)) : Prop where
  plain : ∀ e ∈ T, e.2 ≠ [] ∧ ∀ c ∈ e.2, c ∉ nameEnds
  distinct : T.Pairwise fun a b => lower a.2 ≠ lower b.2

theorem name_ok {n : Str} (h : ∀ c ∈ n, c ∉ nameEnds) : n.Ok := fun hm => h _ hm (by decide)

theorem name_not {n : Str} (h : ∀ c ∈ n, c ∉ nameEnds) (c : Char) (hc : c ∈ nameEnds) : c ∉ n := fun hm => h _ hm hc

theorem name_qtext {n : Str} (h : ∀ c ∈ n, c ∉ nameEnds) : QText (n ++ ['=']) := by
  induction n with
  | nil => exact .char (by decide) (by decide) .nil
  | cons c n ih =>
    have := h c (by simp)
    exact .char (fun e => this (by rw [e]; decide)) (fun e => this (by rw [e]; decide)) (ih fun x hx => h x (by simp [hx]))

theorem lower_len (s : Str) : (lower s).length = s.length := by simp [lower]

theorem nextElement_end (r : List Char) : nextElement (NUL :: r) = some none := by
  have e1 : skipChars [' ', '\t'] (NUL :: r) = some (NUL :: r) := by rw [skipChars, if_neg (by decide)]
  have e2 : skipChars ['\n', '\r'] (NUL :: r) = some (NUL :: r) := by rw [skipChars, if_neg (by decide)]
  simp [nextElement, e1, e2, deref]

theorem nextElement_at {w : Str} (hw : ∀ c ∈ w, c = ' ' ∨ c = '\t') {c : Char} (h : c ∉ [' ', '\t', '\n', '\r', NUL]) (t : List Char) :
    nextElement (w ++ c :: t) = some (some (c :: t)) := by
  simp only [List.mem_cons, List.not_mem_nil, or_false, not_or] at h
  have e1 : skipChars [' ', '\t'] (w ++ c :: t) = some (c :: t) :=
    skipChars_run w (by intro x hx; rcases hw x hx with rfl | rfl <;> decide) (by simp [h]) t
  have e2 : skipChars ['\n', '\r'] (c :: t) = some (c :: t) := by simp [skipChars, h]
  simp [nextElement, e1, e2, deref, h]

theorem name_first {n : Str} (h0 : n ≠ []) (h : ∀ c ∈ n, c ∉ nameEnds) : ∃ c t, n = c :: t ∧ c ∉ nameEnds := by
  cases n with
  | nil => exact absurd rfl h0
  | cons c t => exact ⟨c, t, rfl, h c (by simp)⟩

/-- Blanks and commas before a name are skipped. -/
theorem skip_to_name {w n : Str} (hw : ∀ c ∈ w, c = ' ' ∨ c = '\t' ∨ c = ',') (h0 : n ≠ []) (h : ∀ c ∈ n, c ∉ nameEnds) (t : List Char) :
    skipChars [' ', '\t', ','] (w ++ (n ++ t)) = some (n ++ t) := by
  obtain ⟨c, t', rfl, hc⟩ := name_first h0 h
  refine skipChars_run w (by intro x hx; rcases hw x hx with rfl | rfl | rfl <;> decide) ?_ _
  intro hm
  apply hc
  simp only [List.mem_cons, List.not_mem_nil, or_false] at hm
  rcases hm with rfl | rfl | rfl <;> decide

/-- The comparison with a name in the table. -/
theorem cmp_name {n m v tail : Str} (hn : ∀ c ∈ n, c ∉ nameEnds) (hm : ∀ c ∈ m, c ∉ nameEnds) (hv : v.Ok) (ht : tail.Ok) (r : List Char) :
    ∃ k, osip_strncasecmp (cbuf n) (m ++ '=' :: (v ++ (tail ++ NUL :: r))) n.length = some k ∧ (k = 0 ↔ lower n <+: lower m) := by
  obtain ⟨k, hk, h⟩ := c57_strncasecmp (s := n) (t := m ++ '=' :: (v ++ tail)) (name_ok hn)
    (ok_append (name_ok hm) (ok_cons.2 ⟨by decide, ok_append hv ht⟩)) [] r n.length
  refine ⟨k, by simpa [cbuf] using hk, h.trans ?_⟩
  rw [List.take_length]
  constructor
  · intro e
    have hle : n.length ≤ m.length := by
      by_cases hlt : n.length ≤ m.length
      · exact hlt
      · exfalso
        have hx : (lower n)[m.length]? = some '=' := by
          rw [e]
          rw [List.take_append, List.take_of_length_le (by omega)]
          obtain ⟨j, hj⟩ : ∃ j, n.length - m.length = j + 1 := ⟨n.length - m.length - 1, by omega⟩
          rw [hj, List.take_succ_cons]
          simp [lower]
        simp only [lower, List.getElem?_map, Option.map_eq_some_iff] at hx
        obtain ⟨c, hc, hl⟩ := hx
        have := hn c (List.mem_of_getElem? hc)
        have hce : c = '=' := by
          have h2 : ctolower c = ctolower '=' := (ctolower_inj c '=').2 (by rw [hl]; decide)
          have h3 : ctolower '=' = 61 := by decide
          rw [h3] at h2
          unfold ctolower at h2
          split at h2
          · next hA =>
            have : 65 ≤ c.toNat := hA.1
            omega
          · apply Char.toNat_inj.1
            show c.toNat = 61
            omega
        exact this (by rw [hce]; decide)
    rw [List.take_append_of_le_length hle] at e
    rw [e, lower, List.map_take]
    exact List.take_prefix _ _
  · intro hp
    have hle : n.length ≤ m.length := by simpa [lower] using hp.length_le
    rw [List.take_append_of_le_length hle]
    have := List.prefix_iff_eq_take.1 hp
    simpa [lower, List.map_take] using this

/-- What follows a directive. -/
def Rest (t : Str) : Prop := t.Ok ∧ (t = [] ∨ ∃ u, t = ',' :: u)

theorem quoted_ok {v : Str} (h : IsQuoted v) : v.Ok := by
  obtain ⟨b, _, h2, rfl⟩ := h
  exact ok_cons.2 ⟨by decide, ok_append h2 (by decide)⟩

theorem value_ok {v : Str} (h : IsQuoted v ∨ IsToken v) : v.Ok := by
  rcases h with h | h
  · exact quoted_ok h
  · exact h.2.1

theorem backSpaces_name {m : Str} (h0 : m ≠ []) (hm : ∀ c ∈ m, c ∉ nameEnds) (t : List Char) :
    backSpaces (m ++ t) m.length = some m.length := by
  obtain ⟨k, hk⟩ : ∃ k, m.length = k + 1 := ⟨m.length - 1, by have := List.length_pos_iff.2 h0; omega⟩
  rw [hk, backSpaces]
  have hg : (m ++ t)[k]? = some (m[k]'(by omega)) := by rw [List.getElem?_append_left (by omega)]; simp
  rw [hg]
  simp only
  rw [if_neg]
  intro e
  have := hm (m[k]'(by omega)) (List.getElem_mem _)
  exact this (by rw [e]; decide)

/-- A quoted string that is found. -/
theorem quotedValue_at {m body tail : Str} (hm : ∀ c ∈ m, c ∉ nameEnds) (hb : QText body) (ho : body.Ok) (ht : Rest tail) (r : List Char) :
    quotedValue (m ++ '=' :: ('"' :: (body ++ ['"']) ++ (tail ++ NUL :: r))) =
      some (OSIP_SUCCESS, if body = [] then none else some ('"' :: (body ++ ['"'])),
        if tail = [] then none else some (tail ++ NUL :: r)) := by
  have hq1 : cquote_find (m ++ '=' :: ('"' :: (body ++ ['"']) ++ (tail ++ NUL :: r))) =
      some (some ('"' :: (body ++ ('"' :: tail ++ NUL :: r)))) := by
    have := quote_find_qtext (name_qtext hm) (ok_append (name_ok hm) (by decide)) (rest := body ++ '"' :: tail)
      (ok_append ho (ok_cons.2 ⟨by decide, ht.1⟩)) r
    simpa using this
  have hq2 := quote_find_qtext hb ho ht.1 r
  have hn : nextElement (tail ++ NUL :: r) = some (if tail = [] then none else some (tail ++ NUL :: r)) := by
    rcases ht.2 with rfl | ⟨u, rfl⟩
    · exact nextElement_end r
    · simpa using nextElement_at (w := []) (by simp) (c := ',') (by decide) (u ++ NUL :: r)
  have hd : pdiff ('"' :: tail ++ NUL :: r) ('"' :: (body ++ ('"' :: tail ++ NUL :: r))) = body.length + 1 := by
    simp [pdiff]; omega
  unfold quotedValue
  simp only [List.cons_append, List.append_assoc, List.nil_append] at hq1 hq2 hd ⊢
  simp only [hq1, Option.bind_eq_bind, Option.bind_some, List.drop_one, List.tail_cons, hq2, hd]
  by_cases h0 : body = []
  · subst h0
    simp only [hn, Option.bind_some]
    rw [if_pos (by simp)]; rfl
  · have := List.length_pos_iff.2 h0
    have hs : strncpy ('"' :: (body ++ '"' :: (tail ++ NUL :: r))) ((body.length : Int) + 1 + 1) = some ('"' :: (body ++ ['"'])) := by
      have e := strncpy_at (a := '"' :: (body ++ ['"'])) (b := tail) (quoted_ok ⟨body, hb, ho, rfl⟩) ht.1 r
        (n := (body.length : Int) + 1 + 1) (by simp)
      simpa using e
    rw [if_neg (by omega), hs, hn]
    simp [h0]

theorem quoted_set {n w : Str} {d : Directive} {tail : Str} (hn : n ≠ [] ∧ ∀ c ∈ n, c ∉ nameEnds)
    (hw : ∀ c ∈ w, c = ' ' ∨ c = '\t' ∨ c = ',') (h0 : d.name ≠ []) (hd : ∀ c ∈ d.name, c ∉ nameEnds) (hv : d.value.Ok) (ht : Rest tail)
    (r : List Char) :
    quoted_string_set n (w ++ (d.name ++ '=' :: (d.value ++ (tail ++ NUL :: r)))) none =
      if lower n = lower d.name then quotedValue (d.name ++ '=' :: (d.value ++ (tail ++ NUL :: r)))
      else some (OSIP_SUCCESS, none, some (d.name ++ '=' :: (d.value ++ (tail ++ NUL :: r)))) := by
  obtain ⟨k, hk, hk0⟩ := cmp_name hn.2 hd hv ht.1 r
  have hs := skip_to_name hw h0 hd ('=' :: (d.value ++ (tail ++ NUL :: r)))
  have hc := cstrchr_found (c := '=') (name_ok hd) (name_not hd _ (by decide)) (d.value ++ (tail ++ NUL :: r))
  have hb := backSpaces_name h0 hd ('=' :: (d.value ++ (tail ++ NUL :: r)))
  simp only [quoted_string_set, hs, hk, Option.bind_eq_bind, Option.bind_some]
  by_cases hp : lower n <+: lower d.name
  · rw [if_pos (hk0.2 hp)]
    simp only [hc, Option.bind_some, pdiff_app, Int.toNat_natCast, hb]
    by_cases hl : d.name.length = n.length
    · rw [if_neg (by omega), if_pos]
      have := List.prefix_iff_eq_take.1 hp
      rw [this, lower_len, ← hl, List.take_of_length_le (by rw [lower_len]; omega)]
    · rw [if_pos hl, if_neg (fun e => hl (by rw [← lower_len n, e, lower_len]))]; rfl
  · rw [if_neg (fun e => hp (hk0.1 e)), if_neg (fun e => hp (by rw [e]; exact List.prefix_refl _))]; rfl

theorem tokenValue_at {m v tail : Str} (hv : IsToken v) (ht : Rest tail) (hm : ∀ c ∈ m, c ∉ nameEnds) (r : List Char) :
    tokenValue ('=' :: (v ++ (tail ++ NUL :: r))) (m ++ '=' :: (v ++ (tail ++ NUL :: r))) =
      (nextElement (tail.drop 1 ++ NUL :: r)).map fun x => (OSIP_SUCCESS, some v, x) := by
  obtain ⟨v1, v2, v3, v4, v5⟩ := hv
  have hs : Str.Ok (m ++ '=' :: v) := ok_append (name_ok hm) (ok_cons.2 ⟨by decide, v2⟩)
  have hc : ',' ∉ m ++ '=' :: v := by simp [name_not hm ',' (by decide), v4]
  have hl := List.length_pos_iff.2 v1
  have hcp := clrncpy_at v2 ht.1 r (n := (v.length : Int) + 1 - 1) (by omega)
  have hpd : pdiff (tail ++ NUL :: r) ('=' :: (v ++ (tail ++ NUL :: r))) = v.length + 1 := by simp [pdiff]; omega
  unfold tokenValue
  rcases ht.2 with rfl | ⟨u, rfl⟩
  · have h1 := cstrchr_none hs hc (by decide) r
    have h2 := cstr_at hs r
    have h3 := drop_len (s := m ++ '=' :: v) (NUL :: r)
    simp only [List.append_assoc, List.cons_append, List.nil_append] at *
    simp only [h1, h2, h3, Option.bind_eq_bind, Option.bind_some, Option.pure_def, hpd, List.drop_one, List.tail_cons, hcp, deref, List.head?_cons]
    rw [if_neg (by omega)]
    simp only [if_true, show trim v = v from v3]
    rw [nextElement_end]
    simp [nextElement_end]
  · have h1 := cstrchr_found (c := ',') hs hc (u ++ NUL :: r)
    simp only [List.append_assoc, List.cons_append, List.nil_append] at *
    simp only [h1, Option.bind_eq_bind, Option.bind_some, Option.pure_def, hpd, List.drop_one, List.tail_cons, hcp, deref, List.head?_cons]
    rw [if_neg (by omega), if_neg (by decide)]
    simp only [show trim v = v from v3]
    cases nextElement (u ++ NUL :: r) <;> rfl

theorem token_set_at {n w : Str} {d : Directive} {tail : Str} (hn : n ≠ [] ∧ ∀ c ∈ n, c ∉ nameEnds)
    (hw : ∀ c ∈ w, c = ' ' ∨ c = '\t' ∨ c = ',') (h0 : d.name ≠ []) (hd : ∀ c ∈ d.name, c ∉ nameEnds) (hv : d.value.Ok) (ht : Rest tail)
    (hlong : 6 ≤ d.name.length + 1 + d.value.length) (hpre : lower n <+: lower d.name → lower n = lower d.name) (r : List Char) :
    token_set n (w ++ (d.name ++ '=' :: (d.value ++ (tail ++ NUL :: r)))) none =
      if lower n = lower d.name then
        tokenValue ('=' :: (d.value ++ (tail ++ NUL :: r))) (d.name ++ '=' :: (d.value ++ (tail ++ NUL :: r)))
      else some (OSIP_SUCCESS, none, some (d.name ++ '=' :: (d.value ++ (tail ++ NUL :: r)))) := by
  obtain ⟨k, hk, hk0⟩ := cmp_name hn.2 hd hv ht.1 r
  have hs := skip_to_name hw h0 hd ('=' :: (d.value ++ (tail ++ NUL :: r)))
  have hwo : Str.Ok w := by
    intro hm
    rcases hw _ hm with h | h | h <;> exact absurd h (by decide)
  have hwe : '=' ∉ w := by
    intro hm
    rcases hw _ hm with h | h | h <;> exact absurd h (by decide)
  have hc := cstrchr_found (c := '=') (a := w ++ d.name) (ok_append hwo (name_ok hd)) (by simp [hwe, name_not hd '=' (by decide)]) (d.value ++ (tail ++ NUL :: r))
  have hst := cstr_at (s := w ++ (d.name ++ '=' :: (d.value ++ tail))) (ok_append hwo (ok_append (name_ok hd) (ok_cons.2 ⟨by decide, ok_append hv ht.1⟩))) r
  simp only [List.append_assoc, List.cons_append] at hc hst
  simp only [token_set, hs, hk, hc, hst, Option.bind_eq_bind, Option.bind_some]
  rw [if_neg (by simp only [List.length_append, List.length_cons]; omega)]
  by_cases hp : lower n <+: lower d.name
  · rw [if_pos (hk0.2 hp), if_pos (hpre hp)]
  · rw [if_neg (fun e => hp (hk0.1 e)), if_neg (fun e => hp (by rw [e]; exact List.prefix_refl _))]; rfl

/-- A place before a directive. -/
def posn (w : Str) (d : Directive) (ds : List Directive) (r : List Char) : List Char :=
  w ++ (d.name ++ '=' :: (d.value ++ (moreText ds ++ NUL :: r)))

/-- Blanks, with or without a comma before them. -/
def Seps (w : Str) : Prop := ∃ b : Str, (∀ c ∈ b, c = ' ' ∨ c = '\t') ∧ (w = b ∨ w = ',' :: b)

theorem seps_all {w : Str} (h : Seps w) : ∀ c ∈ w, c = ' ' ∨ c = '\t' ∨ c = ',' := by
  obtain ⟨b, hb, rfl | rfl⟩ := h <;> intro c hc
  · rcases hb c hc with h | h <;> simp [h]
  · rcases List.mem_cons.1 hc with h | hc
    · simp [h]
    · rcases hb c hc with h | h <;> simp [h]

theorem seps_nil : Seps [] := ⟨[], by simp, .inl rfl⟩

theorem lead_ok {w : Str} (h : ∀ c ∈ w, c = ' ' ∨ c = '\t') : w.Ok := by
  intro hm
  rcases h _ hm with h | h <;> exact absurd h (by decide)

theorem more_rest {T : List (DirKind × Str)} {ds : List Directive} (h : ∀ d ∈ ds, WfDirective T d) : Rest (moreText ds) := by
  induction ds with
  | nil => exact ⟨by simp [moreText, Str.Ok], .inl rfl⟩
  | cons d ds ih =>
    have hd := h d (by simp)
    refine ⟨?_, .inr ⟨_, rfl⟩⟩
    rw [moreText, List.flatMap_cons]
    refine ok_append (ok_cons.2 ⟨by decide, ok_append (ok_append (lead_ok hd.lead) (name_ok hd.name.2)) ?_⟩) (ih fun x hx => h x (by simp [hx])).1
    exact ok_cons.2 ⟨by decide, value_ok hd.value⟩

theorem more_cons (d : Directive) (ds : List Directive) (r : List Char) :
    moreText (d :: ds) ++ NUL :: r = posn (',' :: d.lead) d ds r := by
  simp [moreText, posn, Directive.text]

/-- What a field gets from a directive with its name. -/
def given (d : Directive) : Option Str := if d.value = "\"\"".toList then none else some d.value

theorem authSet_at {T : List (DirKind × Str)} (hT : GoodTable T) {k : DirKind} {n : Str} (hk : (k, n) ∈ T) {w : Str} (hw : Seps w)
    {d : Directive} {ds : List Directive} (hwf : ∀ x ∈ d :: ds, WfDirective T x) (r : List Char) :
    (lower n ≠ lower d.name → authSet k n (posn w d ds r) none = some (OSIP_SUCCESS, none, some (posn [] d ds r))) ∧
    (lower n = lower d.name → ds = [] → authSet k n (posn w d ds r) none = some (OSIP_SUCCESS, given d, none)) ∧
    (∀ d2 ds2, lower n = lower d.name → ds = d2 :: ds2 → ∃ w2, Seps w2 ∧
      authSet k n (posn w d ds r) none = some (OSIP_SUCCESS, given d, some (posn w2 d2 ds2 r)) ∧
      (posn w2 d2 ds2 r).length < (posn w d ds r).length) := by
  have hd := hwf d (by simp)
  have hds : ∀ x ∈ ds, WfDirective T x := fun x hx => hwf x (by simp [hx])
  have hR := more_rest hds
  have hn := hT.plain _ hk
  have hlen : ∀ d2 ds2, ds = d2 :: ds2 → (posn (',' :: d2.lead) d2 ds2 r).length < (posn w d ds r).length := by
    rintro d2 ds2 rfl
    rw [← more_cons]
    simp only [posn, List.length_append, List.length_cons]
    omega
  have hlen0 : ∀ d2 ds2, ds = d2 :: ds2 → (posn [] d2 ds2 r).length < (posn w d ds r).length := by
    intro d2 ds2 h
    refine Nat.lt_of_le_of_lt ?_ (hlen d2 ds2 h)
    simp only [posn, List.length_append, List.length_cons, List.length_nil]
    omega
  cases k with
  | quoted =>
    have hq := quoted_set hn (seps_all hw) hd.name.1 hd.name.2 (value_ok hd.value) hR r
    simp only [authSet]
    refine ⟨fun h => ?_, fun h h0 => ?_, fun d2 ds2 h h0 => ?_⟩
    · rw [posn, hq, if_neg h]; rfl
    · obtain ⟨b, b1, b2, b3⟩ := hd.kind .quoted n hk h
      rw [posn, hq, if_pos h, b3, quotedValue_at hd.name.2 b1 b2 hR r, h0]
      by_cases hb : b = []
      · subst hb; simp [given, b3, moreText]
      · simp [given, b3, moreText, hb]
    · obtain ⟨b, b1, b2, b3⟩ := hd.kind .quoted n hk h
      refine ⟨',' :: d2.lead, ?_, ?_, hlen d2 ds2 h0⟩
      · exact ⟨d2.lead, (hds d2 (by simp [h0])).lead, .inr rfl⟩
      · rw [posn, hq, if_pos h, b3, quotedValue_at hd.name.2 b1 b2 hR r, h0, more_cons]
        rw [if_neg (show moreText (d2 :: ds2) ≠ [] by simp [moreText])]
        by_cases hb : b = []
        · subst hb; simp [given, b3]
        · simp [given, b3, hb]
  | token =>
    have hq := token_set_at hn (seps_all hw) hd.name.1 hd.name.2 (value_ok hd.value) hR hd.long (hd.longer n hk) r
    simp only [authSet]
    refine ⟨fun h => ?_, fun h h0 => ?_, fun d2 ds2 h h0 => ?_⟩
    · rw [posn, hq, if_neg h]; rfl
    · have hv := hd.kind .token n hk h
      have hg : given d = some d.value := by
        rw [given, if_neg]
        intro e
        exact hv.2.2.2.2.elim (fun h => h (by rw [e]; decide)) (fun h => h.2 e)
      rw [posn, hq, if_pos h, tokenValue_at hv hR hd.name.2, hg, h0]
      simp only [moreText, List.flatMap_nil, List.drop_nil, List.nil_append, nextElement_end]
      rfl
    · have hv := hd.kind .token n hk h
      have hg : given d = some d.value := by
        rw [given, if_neg]
        intro e
        exact hv.2.2.2.2.elim (fun h => h (by rw [e]; decide)) (fun h => h.2 e)
      refine ⟨[], seps_nil, ?_, hlen0 d2 ds2 h0⟩
      rw [posn, hq, if_pos h, tokenValue_at hv hR hd.name.2, hg, h0]
      have h2 := hds d2 (by simp [h0])
      obtain ⟨c, t, hc, hc'⟩ := name_first h2.name.1 h2.name.2
      have e : (moreText (d2 :: ds2)).drop 1 ++ NUL :: r = d2.lead ++ c :: (t ++ '=' :: (d2.value ++ (moreText ds2 ++ NUL :: r))) := by
        simp [moreText, Directive.text, hc]
      rw [e, nextElement_at h2.lead (by
        intro hm
        apply hc'
        simp only [List.mem_cons, List.not_mem_nil, or_false] at hm
        rcases hm with rfl | rfl | rfl | rfl | rfl <;> decide)]
      simp [posn, hc]

/-- The fields after one more directive. -/
def fill (T : List (DirKind × Str)) (F : Fields) (d : Directive) : Fields :=
  fun n => if F n = none ∧ n ∈ T.map (·.2) ∧ lower n = lower d.name then given d else F n

theorem set_same (F : Fields) (n : Str) : F.set n (F n) = F := by
  funext m
  simp only [Fields.set]
  split
  · next h => rw [h]
  · rfl

theorem table_unique {T : List (DirKind × Str)} (hT : T.Pairwise fun a b => lower a.2 ≠ lower b.2) {a b : DirKind × Str} (ha : a ∈ T) (hb : b ∈ T)
    (h : lower a.2 = lower b.2) : a = b := by
  induction hT with
  | nil => cases ha
  | cons h1 _ ih =>
    rcases List.mem_cons.1 ha with rfl | ha' <;> rcases List.mem_cons.1 hb with rfl | hb'
    · rfl
    · exact absurd h (h1 _ hb')
    · exact absurd h.symm (h1 _ ha')
    · exact ih ha' hb'

theorem set_fill {T : List (DirKind × Str)} (hT : GoodTable T) {k : DirKind} {n : Str} (hk : (k, n) ∈ T) {F : Fields} (hF : F n = none)
    {d : Directive} (h : lower n = lower d.name) : F.set n (given d) = fill T F d := by
  funext m
  simp only [Fields.set, fill]
  by_cases hm : m = n
  · subst hm
    rw [if_pos rfl, if_pos ⟨hF, List.mem_map.2 ⟨_, hk, rfl⟩, h⟩]
  · rw [if_neg hm, if_neg]
    rintro ⟨_, h2, h3⟩
    obtain ⟨e, he, rfl⟩ := List.mem_map.1 h2
    have := table_unique hT.distinct he hk (h3.trans h.symm)
    exact hm (by rw [this])

theorem authRound_run {T : List (DirKind × Str)} (hT : GoodTable T) (T' : List (DirKind × Str)) (hsub : ∀ e ∈ T', e ∈ T) (F : Fields)
    {w : Str} (hw : Seps w) {d : Directive} {ds : List Directive} (hwf : ∀ x ∈ d :: ds, WfDirective T x) (ok : Bool) (r : List Char) :
    authRound T' F (posn w d ds r) ok = some ((d :: ds).foldl (fill T) F, .ret OSIP_SUCCESS) ∨
    ∃ pre d' ds' w', d :: ds = pre ++ d' :: ds' ∧ Seps w' ∧ (posn w' d' ds' r).length ≤ (posn w d ds r).length ∧
      authRound T' F (posn w d ds r) ok = some (pre.foldl (fill T) F,
        .go (posn w' d' ds' r) (ok || decide ((posn w' d' ds' r).length ≠ (posn w d ds r).length))) ∧
      ((posn w' d' ds' r).length = (posn w d ds r).length → pre = [] ∧ w' = w ∧ ∀ e ∈ T', F e.2 = none → lower e.2 ≠ lower d.name) := by
  induction T' generalizing F w d ds ok with
  | nil => exact .inr ⟨[], d, ds, w, rfl, hw, Nat.le_refl _, by simp [authRound], by simp⟩
  | cons e T' ih =>
    obtain ⟨k, n⟩ := e
    have hk : (k, n) ∈ T := hsub _ (by simp)
    have hsub' : ∀ e ∈ T', e ∈ T := fun e he => hsub e (by simp [he])
    simp only [authRound]
    cases hF : F n with
    | some v =>
      have h1 : authSet k n (posn w d ds r) (some v) = some (OSIP_SUCCESS, some v, some (posn w d ds r)) := by
        cases k <;> rfl
      rw [h1]
      simp only [Option.bind_eq_bind, Option.bind_some]
      rw [if_neg (by decide), ← hF, set_same]
      have h2 : (ok || decide (pdiff (posn w d ds r) (posn w d ds r) ≠ 0)) = ok := by simp [pdiff]
      rw [h2]
      rcases ih hsub' F hw hwf ok with h | ⟨pre, d', ds', w', a1, a2, a3, a4, a5⟩
      · exact .inl h
      · refine .inr ⟨pre, d', ds', w', a1, a2, a3, a4, fun h => ⟨(a5 h).1, (a5 h).2.1, ?_⟩⟩
        intro e he h'
        rcases List.mem_cons.1 he with rfl | he
        · rw [hF] at h'; cases h'
        · exact (a5 h).2.2 e he h'
    | none =>
      obtain ⟨s1, s2, s3⟩ := authSet_at hT hk hw hwf r
      by_cases hname : lower n = lower d.name
      · cases ds with
        | nil =>
          rw [s2 hname rfl]
          simp only [Option.bind_eq_bind, Option.bind_some]
          rw [if_neg (by decide), set_fill hT hk hF hname]
          exact .inl rfl
        | cons d2 ds2 =>
          obtain ⟨w2, hw2, h1, hlt⟩ := s3 d2 ds2 hname rfl
          rw [h1]
          simp only [Option.bind_eq_bind, Option.bind_some]
          rw [if_neg (by decide), set_fill hT hk hF hname]
          have h2 : (ok || decide (pdiff (posn w2 d2 ds2 r) (posn w d (d2 :: ds2) r) ≠ 0)) = true := by
            have : decide (pdiff (posn w2 d2 ds2 r) (posn w d (d2 :: ds2) r) ≠ 0) = true := by
              apply decide_eq_true
              intro h
              simp only [pdiff] at h
              omega
            rw [this, Bool.or_true]
          rw [h2]
          rcases ih hsub' (fill T F d) hw2 (fun x hx => hwf x (List.mem_cons_of_mem _ hx)) true with h | ⟨pre, d', ds', w', a1, a2, a3, a4, a5⟩
          · exact .inl h
          · refine .inr ⟨d :: pre, d', ds', w', by rw [a1]; rfl, a2, by omega, ?_, by intro; omega⟩
            rw [a4]
            have : decide ((posn w' d' ds' r).length ≠ (posn w d (d2 :: ds2) r).length) = true := by simp; omega
            rw [this]
            simp
      · rw [s1 hname]
        simp only [Option.bind_eq_bind, Option.bind_some]
        have hset : F.set n none = F := by
          have := set_same F n
          rwa [hF] at this
        rw [if_neg (by decide), hset]
        have hle : (posn [] d ds r).length ≤ (posn w d ds r).length := by simp [posn]
        rcases ih hsub' F (w := []) seps_nil hwf (ok || decide (pdiff (posn [] d ds r) (posn w d ds r) ≠ 0)) with
          h | ⟨pre, d', ds', w', a1, a2, a3, a4, a5⟩
        · exact .inl h
        · refine .inr ⟨pre, d', ds', w', a1, a2, by omega, ?_, ?_⟩
          · rw [a4]
            congr 3
            rw [Bool.or_assoc]
            congr 1
            simp only [pdiff]
            by_cases c1 : (posn w' d' ds' r).length = (posn w d ds r).length
            · have c2 : (posn [] d ds r).length = (posn w d ds r).length := by omega
              simp [c1, c2]
            · by_cases c2 : (posn w' d' ds' r).length = (posn [] d ds r).length
              · simp only [c2, ne_eq, not_true_eq_false, decide_false, Bool.or_false]
                apply decide_eq_decide.2
                omega
              · simp [c1, c2]
          · intro h
            have hl : (posn [] d ds r).length = (posn w d ds r).length := by omega
            have hw0 : w = [] := by simpa [posn] using hl
            obtain ⟨b1, b2, b3⟩ := a5 (by omega)
            refine ⟨b1, by rw [b2, hw0], ?_⟩
            intro e he h'
            rcases List.mem_cons.1 he with rfl | he
            · exact hname
            · exact b3 e he h'

/-- The place before the next directive, if there is one. -/
theorem authBypass_at {T : List (DirKind × Str)} {w : Str} (hw : Seps w) {d : Directive} {ds : List Directive}
    (hwf : ∀ x ∈ d :: ds, WfDirective T x) (r : List Char) :
    authBypass (posn w d ds r) = some (if moreText ds = [] then .ret OSIP_SUCCESS else .go (moreText ds ++ NUL :: r) false) := by
  have hd := hwf d (by simp)
  have hds : ∀ x ∈ ds, WfDirective T x := fun x hx => hwf x (by simp [hx])
  have hR := more_rest hds
  have hvo := value_ok hd.value
  have hwo : Str.Ok w := by
    intro hm
    rcases seps_all hw _ hm with h | h | h <;> exact absurd h (by decide)
  -- everything before the value
  have hx : ∃ x : Str, x.Ok ∧ ',' ∉ x ∧ (posn w d ds r).drop 1 = x ++ (d.value ++ (moreText ds ++ NUL :: r)) := by
    obtain ⟨c, t, hc, _⟩ := name_first hd.name.1 hd.name.2
    obtain ⟨b, hb, e⟩ := hw
    have hbo := lead_ok hb
    have hbc : ',' ∉ b := by
      intro hm
      rcases hb _ hm with h | h <;> exact absurd h (by decide)
    have hno := name_ok hd.name.2
    have hnc := name_not hd.name.2 ',' (by decide)
    have hno' : Str.Ok (d.name ++ ['=']) := ok_append hno (by decide)
    rcases e with rfl | rfl
    · cases w with
      | nil =>
        refine ⟨t ++ ['='], ?_, ?_, by simp [posn, hc]⟩
        · rw [hc] at hno'; exact (ok_cons.1 hno').2
        · rw [hc] at hnc
          simp only [List.mem_cons, not_or] at hnc
          simp [hnc.2]
      | cons x b =>
        refine ⟨b ++ (d.name ++ ['=']), ok_append (ok_cons.1 hbo).2 hno', ?_, by simp [posn]⟩
        simp only [List.mem_cons, not_or] at hbc
        simp [hbc.2, hnc]
    · exact ⟨b ++ (d.name ++ ['=']), ok_append hbo hno', by simp [hbc, hnc], by simp [posn]⟩
  obtain ⟨x, hxo, hxc, hdrop⟩ := hx
  have hcs : cstr (posn w d ds r) = some (w ++ (d.name ++ '=' :: (d.value ++ moreText ds))) := by
    have := cstr_at (s := w ++ (d.name ++ '=' :: (d.value ++ moreText ds)))
      (ok_append hwo (ok_append (name_ok hd.name.2) (ok_cons.2 ⟨by decide, ok_append hvo hR.1⟩))) r
    simpa [posn] using this
  have hlen : ¬ (w ++ (d.name ++ '=' :: (d.value ++ moreText ds))).length < 1 := by simp
  -- a comma after text without comma
  have hcomma : ∀ a : Str, a.Ok → ',' ∉ a → cstrchr ',' (a ++ (moreText ds ++ NUL :: r)) =
      some (if moreText ds = [] then none else some (moreText ds ++ NUL :: r)) := by
    intro a ha hac
    rcases hR.2 with h | ⟨u, h⟩
    · rw [h]; simpa using cstrchr_none ha hac (by decide) r
    · rw [h]
      simpa using cstrchr_found ha hac (u ++ NUL :: r)
  have hwn : QText (w ++ (d.name ++ ['='])) := by
    have hall := seps_all hw
    clear hwo hcs hlen hdrop hw
    induction w with
    | nil => exact name_qtext hd.name.2
    | cons c w ih =>
      refine .char ?_ ?_ (ih fun x hx => hall x (by simp [hx]))
      · rcases hall c (by simp) with h | h | h <;> rw [h] <;> decide
      · rcases hall c (by simp) with h | h | h <;> rw [h] <;> decide
  have hwno : Str.Ok (w ++ (d.name ++ ['='])) := ok_append hwo (ok_append (name_ok hd.name.2) (by decide))
  unfold authBypass
  simp only [hcs, Option.bind_eq_bind, Option.bind_some]
  rw [if_neg hlen]
  have hval : IsQuoted d.value ∨ (d.value ≠ [] ∧ d.value.Ok ∧ Trimmed d.value ∧ ',' ∉ d.value ∧ '"' ∉ d.value) := by
    rcases hd.value with h | ⟨v1, v2, v3, v4, v5 | v5⟩
    · exact .inl h
    · exact .inr ⟨v1, v2, v3, v4, v5⟩
    · exact .inl v5.1
  rcases hval with ⟨body, b1, b2, b3⟩ | ⟨v1, v2, v3, v4, v5⟩
  · have hq1 : cquote_find (posn w d ds r) = some (some ('"' :: (body ++ '"' :: (moreText ds ++ NUL :: r)))) := by
      have := quote_find_qtext hwn hwno (rest := body ++ '"' :: moreText ds) (ok_append b2 (ok_cons.2 ⟨by decide, hR.1⟩)) r
      simpa [posn, b3] using this
    have hq2 := quote_find_qtext b1 b2 hR.1 r
    simp only [List.cons_append] at hq2
    have hcq := hcomma ['"'] (by decide) (by decide)
    simp only [List.cons_append, List.nil_append] at hcq
    by_cases hbc : ',' ∈ body
    · obtain ⟨a, b, hab, hac⟩ := mem_first hbc
      have hao : Str.Ok a := by rw [hab] at b2; exact (ok_append_iff.1 b2).1
      have h1 : cstrchr ',' ((posn w d ds r).drop 1) = some (some (',' :: (b ++ '"' :: (moreText ds ++ NUL :: r)))) := by
        have := cstrchr_found (c := ',') (a := x ++ '"' :: a) (ok_append hxo (ok_cons.2 ⟨by decide, hao⟩)) (by simp [hxc, hac])
          (b ++ '"' :: (moreText ds ++ NUL :: r))
        rw [hdrop, b3, hab]
        simpa using this
      simp only [h1, Option.bind_some, hq1, List.drop_succ_cons, List.drop_zero, hq2, hcq]
      rw [if_pos (by simp [pdiff, hab]; omega), if_pos (by simp [pdiff]; omega)]
      by_cases h0 : moreText ds = []
      · rw [if_pos h0, if_pos h0]; rfl
      · rw [if_neg h0, if_neg h0]; rfl
    · have h1 := hcomma (x ++ '"' :: (body ++ ['"'])) (ok_append hxo (ok_cons.2 ⟨by decide, ok_append b2 (by decide)⟩)) (by simp [hxc, hbc])
      have h1' : cstrchr ',' ((posn w d ds r).drop 1) = some (if moreText ds = [] then none else some (moreText ds ++ NUL :: r)) := by
        rw [hdrop, b3]; simpa using h1
      simp only [h1', Option.bind_some, hq1, List.drop_succ_cons, List.drop_zero]
      by_cases h0 : moreText ds = []
      · rw [if_pos h0, if_pos h0]; rfl
      · rw [if_neg h0, if_neg h0]
        simp only [hq2, Option.bind_some]
        rw [if_pos (by simp [pdiff]; omega), if_neg (by simp [pdiff]; omega)]; rfl
  · have h1' : cstrchr ',' ((posn w d ds r).drop 1) = some (if moreText ds = [] then none else some (moreText ds ++ NUL :: r)) := by
      have h1 := hcomma (x ++ d.value) (ok_append hxo v2) (by simp [hxc, v4])
      rw [hdrop]; simpa using h1
    simp only [h1', Option.bind_some]
    by_cases h0 : moreText ds = []
    · rw [if_pos h0, if_pos h0]; rfl
    · rw [if_neg h0, if_neg h0]
      simp only
      have hpo : posn w d ds r = (w ++ (d.name ++ '=' :: (d.value ++ moreText ds))) ++ NUL :: r := by simp [posn]
      rcases cquote_find_into (t := w ++ (d.name ++ '=' :: (d.value ++ moreText ds))) (ok_append hwo (ok_append (name_ok hd.name.2) (ok_cons.2 ⟨by decide, ok_append hvo hR.1⟩))) r with
        hq | ⟨a, u, e, hq⟩
      · rw [hpo, hq]; rfl
      · rw [hpo, hq]
        simp only [Option.bind_some]
        rw [if_neg]
        · rfl
        · -- the quote is in the text of a later directive
          have hnq : '"' ∉ w ++ (d.name ++ '=' :: d.value) := by
            intro hm
            simp only [List.mem_append, List.mem_cons] at hm
            rcases hm with hm | hm | hm | hm
            · rcases seps_all hw _ hm with h | h | h <;> exact absurd h (by decide)
            · exact name_not hd.name.2 '"' (by decide) hm
            · exact absurd hm (by decide)
            · exact v5 hm
          have e' : (w ++ (d.name ++ '=' :: d.value)) ++ moreText ds = a ++ '"' :: u := by rw [← e]; simp
          have hle : u.length + 1 ≤ (moreText ds).length := by
            rcases List.append_eq_append_iff.1 e' with ⟨a', h1, h2⟩ | ⟨c', h1, h2⟩
            · rw [h2]; simp
            · cases c' with
              | nil => simp only [List.nil_append] at h2; rw [← h2]; simp
              | cons y c' =>
                simp only [List.cons_append, List.cons.injEq] at h2
                exact absurd (by rw [h1, ← h2.1]; simp) hnq
          simp only [pdiff, List.length_append, List.length_cons]
          omega

theorem authLoop_run {T : List (DirKind × Str)} (hT : GoodTable T) (n : Nat) (F : Fields) {w : Str} (hw : Seps w) {d : Directive}
    {ds : List Directive} (hwf : ∀ x ∈ d :: ds, WfDirective T x) (r : List Char) (hn : (posn w d ds r).length ≤ n) :
    authLoop T n F (posn w d ds r) = some (OSIP_SUCCESS, (d :: ds).foldl (fill T) F) := by
  induction n generalizing F w d ds with
  | zero => simp [posn] at hn
  | succ n ih =>
    simp only [authLoop]
    rcases authRound_run hT T (fun _ h => h) F hw hwf false r with h | ⟨pre, d', ds', w', a1, a2, a3, a4, a5⟩
    · rw [h]; rfl
    · rw [a4]
      simp only [Option.bind_eq_bind, Option.bind_some, Bool.false_or]
      have hwf' : ∀ x ∈ d' :: ds', WfDirective T x := fun x hx => hwf x (by rw [a1]; simp only [List.mem_append]; exact .inr hx)
      by_cases hl : (posn w' d' ds' r).length = (posn w d ds r).length
      · obtain ⟨rfl, rfl, hno⟩ := a5 hl
        simp only [List.nil_append, List.cons.injEq] at a1
        obtain ⟨rfl, rfl⟩ := a1
        simp only [ne_eq, not_true_eq_false, decide_false, authBypass_at a2 hwf, Option.bind_some]
        have hfill : fill T F d = F := by
          funext m
          rw [fill, if_neg]
          rintro ⟨h1, h2, h3⟩
          obtain ⟨e, he, rfl⟩ := List.mem_map.1 h2
          exact hno e he h1 h3
        cases ds with
        | nil => simp [hfill, moreText]
        | cons d2 ds2 =>
          rw [if_neg (show moreText (d2 :: ds2) ≠ [] by simp [moreText]), more_cons, List.foldl_nil]
          simp only
          rw [ih F ⟨d2.lead, (hwf d2 (by simp)).lead, .inr rfl⟩ (fun x hx => hwf x (List.mem_cons_of_mem _ hx)) (by
            rw [← more_cons]
            simp only [posn, List.length_append, List.length_cons] at hn ⊢
            omega)]
          simp [hfill]
      · simp only [ne_eq, hl, not_false_eq_true, decide_true]
        rw [ih _ a2 hwf' (by omega), a1, List.foldl_append]

theorem fill_fold (T : List (DirKind × Str)) (ds : List Directive) (F : Fields) (n : Str) :
    ds.foldl (fill T) F n = if n ∈ T.map (·.2) ∧ F n = none then dirValue ds n else F n := by
  induction ds generalizing F with
  | nil =>
    simp only [List.foldl_nil, dirValue, List.find?_nil, Option.map_none]
    split
    · next h => exact h.2
    · rfl
  | cons d ds ih =>
    rw [List.foldl_cons, ih, fill]
    by_cases hm : n ∈ T.map (·.2)
    · by_cases hF : F n = none
      · simp only [hm, hF, true_and, if_true]
        by_cases hn : lower n = lower d.name
        · by_cases hv : d.value = "\"\"".toList
          · simp [hn, given, hv, dirValue]
          · have hv' : ¬ d.value = ['"', '"'] := hv
            simp [hn, given, hv', dirValue]
        · simp [hn, dirValue]
      · simp only [hm, hF, and_false, false_and, if_false]
    · simp only [hm, false_and, and_false, if_false]

theorem fill_all (T : List (DirKind × Str)) (ds : List Directive) : ds.foldl (fill T) (fun _ => none) = dirFields T ds := by
  funext n
  rw [fill_fold]
  by_cases h : n ∈ T.map (·.2)
  · rw [if_pos ⟨h, rfl⟩, dirFields, if_pos h]
  · rw [if_neg (fun e => h e.1), dirFields, if_neg h]

theorem wwwTable_good : GoodTable wwwTable := ⟨by decide +kernel, by decide +kernel⟩
theorem authTable_good : GoodTable authTable := ⟨by decide +kernel, by decide +kernel⟩
theorem infoTable_good : GoodTable infoTable := ⟨by decide +kernel, by decide +kernel⟩

theorem dirs_posn (d : Directive) (ds : List Directive) (r : List Char) : dirsText (d :: ds) ++ NUL :: r = posn d.lead d ds r := by
  simp [dirsText, posn, Directive.text, moreText]

theorem credentials_read {T : List (DirKind × Str)} (hT : GoodTable T) {t : Str} (ht : t.Ok) (h0 : t ≠ []) (hsp : ' ' ∉ t)
    {ds : List Directive} (hds : ds ≠ []) (hwf : ∀ d ∈ ds, WfDirective T d) (r : List Char) :
    credentials_parse T (t ++ ' ' :: (dirsText ds ++ NUL :: r)) = some (OSIP_SUCCESS, some t, dirFields T ds) := by
  obtain ⟨d, ds, rfl⟩ : ∃ d l, ds = d :: l := by
    cases ds with
    | nil => exact absurd rfl hds
    | cons d l => exact ⟨d, l, rfl⟩
  have hc := cstrchr_found (c := ' ') ht hsp (dirsText (d :: ds) ++ NUL :: r)
  have hl := List.length_pos_iff.2 h0
  have hd := hwf d (by simp)
  have hok : Str.Ok (' ' :: dirsText (d :: ds)) := by
    refine ok_cons.2 ⟨by decide, ?_⟩
    refine ok_append (ok_append (ok_append (lead_ok hd.lead) (name_ok hd.name.2)) (ok_cons.2 ⟨by decide, value_ok hd.value⟩)) ?_
    exact (more_rest fun x hx => hwf x (by simp [hx])).1
  have hs := strncpy_at (b := ' ' :: dirsText (d :: ds)) ht hok r (n := t.length) rfl
  simp only [List.cons_append] at hs
  simp only [credentials_parse, hc, Option.bind_eq_bind, Option.bind_some, pdiff_app]
  rw [if_neg (by omega), hs]
  have e : ' ' :: (dirsText (d :: ds) ++ NUL :: r) = posn (' ' :: d.lead) d ds r := by
    rw [dirs_posn]; simp [posn]
  rw [e, authLoop_run hT _ _ ⟨' ' :: d.lead, by
    intro c hc
    rcases List.mem_cons.1 hc with rfl | hc
    · simp
    · exact hd.lead c hc, .inl rfl⟩ hwf r (by omega), fill_all]
  rfl

/-! ## C80 -/

/-- **C80**. From a WWW-Authenticate or Proxy-Authenticate header with any directives in any order, each field gets the value of the first
directive with its name whose value is not the empty quoted string; all other directives are ignored. -/
theorem c80_www_authenticate {t : Str} (ht : t.Ok) (h0 : t ≠ []) (hsp : ' ' ∉ t) {ds : List Directive} (hds : ds ≠ [])
    (hwf : ∀ d ∈ ds, WfDirective wwwTable d) (r : List Char) :
    osip_www_authenticate_parse (t ++ ' ' :: (dirsText ds ++ NUL :: r)) = some (OSIP_SUCCESS, some t, dirFields wwwTable ds) :=
  credentials_read wwwTable_good ht h0 hsp hds hwf r

/-- **C80** for Authorization and Proxy-Authorization. -/
theorem c80_authorization {t : Str} (ht : t.Ok) (h0 : t ≠ []) (hsp : ' ' ∉ t) {ds : List Directive} (hds : ds ≠ [])
    (hwf : ∀ d ∈ ds, WfDirective authTable d) (r : List Char) :
    osip_authorization_parse (t ++ ' ' :: (dirsText ds ++ NUL :: r)) = some (OSIP_SUCCESS, some t, dirFields authTable ds) :=
  credentials_read authTable_good ht h0 hsp hds hwf r

/-- **C80** for Authentication-Info and Proxy-Authentication-Info, with and without a scheme before the directives. -/
theorem c80_authentication_info {t : Option Str} (ht : ∀ x ∈ t, Str.Ok x ∧ ' ' ∉ x ∧ '=' ∉ x) {d : Directive} {ds : List Directive}
    (hlead : t = none → d.lead = []) (hwf : ∀ x ∈ d :: ds, WfDirective infoTable x) (r : List Char) :
    osip_authentication_info_parse ((match t with | none => [] | some t => t ++ [' ']) ++ (dirsText (d :: ds) ++ NUL :: r)) =
      some (OSIP_SUCCESS, t, dirFields infoTable (d :: ds)) := by
  have hd := hwf d (by simp)
  have hmo := (more_rest (T := infoTable) (ds := ds) fun x hx => hwf x (by simp [hx])).1
  have hvo := value_ok hd.value
  have hno := name_ok hd.name.2
  have hnoe := name_not hd.name.2 '=' (by decide)
  have hnos := name_not hd.name.2 ' ' (by decide)
  have hleo : '=' ∉ d.lead := by
    intro hm
    rcases hd.lead _ hm with h | h <;> exact absurd h (by decide)
  cases t with
  | none =>
    have h1 := hlead rfl
    have hF := authLoop_run infoTable_good ((posn [] d ds r).length + 1) (fun _ => none) seps_nil hwf r (by omega)
    rw [fill_all] at hF
    have e : dirsText (d :: ds) ++ NUL :: r = posn [] d ds r := by rw [dirs_posn, h1]
    simp only [List.nil_append, e]
    have heq : cstrchr '=' (posn [] d ds r) = some (some ('=' :: (d.value ++ (moreText ds ++ NUL :: r)))) :=
      cstrchr_found hno hnoe _
    have hsp : cstrchr ' ' (posn [] d ds r) = some none ∨ ∃ u : Str, u.length ≤ d.value.length + (moreText ds).length ∧
        cstrchr ' ' (posn [] d ds r) = some (some (u ++ NUL :: r)) := by
      have hok : Str.Ok (d.name ++ '=' :: (d.value ++ moreText ds)) := ok_append hno (ok_cons.2 ⟨by decide, ok_append hvo hmo⟩)
      have ep : posn [] d ds r = (d.name ++ '=' :: (d.value ++ moreText ds)) ++ NUL :: r := by simp [posn]
      rw [ep]
      rcases cstrchr_cases (c := ' ') hok (by decide) r with ⟨_, h⟩ | ⟨a, u, e, ha, h⟩
      · exact .inl h
      · refine .inr ⟨' ' :: u, ?_, by simpa using h⟩
        have e' : (d.name ++ ['=']) ++ (d.value ++ moreText ds) = a ++ ' ' :: u := by rw [← e]; simp
        rcases List.append_eq_append_iff.1 e' with ⟨a', h1, h2⟩ | ⟨c', h1, h2⟩
        · have := congrArg List.length h2
          simp only [List.length_append, List.length_cons] at this ⊢
          omega
        · cases c' with
          | nil =>
            have := congrArg List.length h2
            simp only [List.length_append, List.length_cons, List.nil_append] at this ⊢
            omega
          | cons y c' =>
            simp only [List.cons_append, List.cons.injEq] at h2
            have : ' ' ∈ d.name ++ ['='] := by rw [h1, ← h2.1]; simp
            simp [hnos] at this
    unfold osip_authentication_info_parse
    rcases hsp with hsp | ⟨u, hu, hsp⟩
    · simp only [hsp, heq, Option.bind_eq_bind, Option.bind_some, hF]; rfl
    · simp only [hsp, heq, Option.bind_eq_bind, Option.bind_some, hF]
      rw [if_neg (by simp [pdiff]; omega)]; rfl
  | some t =>
    obtain ⟨t1, t2, t3⟩ := ht t rfl
    have e : ' ' :: (dirsText (d :: ds) ++ NUL :: r) = posn (' ' :: d.lead) d ds r := by
      rw [dirs_posn]; simp [posn]
    have hF := authLoop_run infoTable_good ((posn (' ' :: d.lead) d ds r).length + 1) (fun _ => none) ⟨' ' :: d.lead, by
      intro c hc
      rcases List.mem_cons.1 hc with rfl | hc
      · simp
      · exact hd.lead c hc, .inl rfl⟩ hwf r (by omega)
    rw [fill_all] at hF
    have h1 := cstrchr_found (c := ' ') t1 t2 (dirsText (d :: ds) ++ NUL :: r)
    have h2 := cstrchr_found (c := '=') (a := t ++ (' ' :: (d.lead ++ d.name)))
      (ok_append t1 (ok_cons.2 ⟨by decide, ok_append (lead_ok hd.lead) hno⟩)) (by simp [t3, hleo, hnoe]) (d.value ++ (moreText ds ++ NUL :: r))
    have e2 : t ++ (' ' :: (d.lead ++ d.name)) ++ '=' :: (d.value ++ (moreText ds ++ NUL :: r)) = t ++ ' ' :: (dirsText (d :: ds) ++ NUL :: r) := by
      simp [dirsText, Directive.text, moreText]
    rw [e2] at h2
    have hok : Str.Ok (' ' :: dirsText (d :: ds)) := by
      refine ok_cons.2 ⟨by decide, ?_⟩
      exact ok_append (ok_append (ok_append (lead_ok hd.lead) hno) (ok_cons.2 ⟨by decide, hvo⟩)) hmo
    have hs := strncpy_at (b := ' ' :: dirsText (d :: ds)) t1 hok r (n := t.length) rfl
    simp only [List.cons_append] at hs
    unfold osip_authentication_info_parse
    simp only [List.append_assoc, List.cons_append, List.nil_append, h1, h2, Option.bind_eq_bind, Option.bind_some, pdiff_app]
    rw [if_pos (by simp [pdiff, dirsText, Directive.text, moreText]; omega), hs]
    simp only [Option.bind_some, e, hF]
    rfl

/-- Directives in any order, one of them unknown and one twice. -/
def authExample : List Directive :=
  [⟨" ".toList, "uri".toList, "\"sip:a@b\"".toList⟩, ⟨[], "future".toList, "\"x, y\"".toList⟩,
   ⟨" \t".toList, "UserName".toList, "\"al\\\"ice\"".toList⟩, ⟨" ".toList, "username".toList, "\"bob\"".toList⟩,
   ⟨" ".toList, "nc".toList, "00000001".toList⟩]

example : dirsText authExample = " uri=\"sip:a@b\",future=\"x, y\", \tUserName=\"al\\\"ice\", username=\"bob\", nc=00000001".toList := by
  decide +kernel
example : (osip_authorization_parse ("Digest ".toList ++ (dirsText authExample ++ [NUL]))).map (fun x => (x.1, x.2.1,
    (authTable.map fun n => x.2.2 n.2))) = some (OSIP_SUCCESS, some "Digest".toList, authTable.map fun n => dirFields authTable authExample n.2) := by
  decide +kernel
example : dirFields authTable authExample "username".toList = some "\"al\\\"ice\"".toList := by decide +kernel
example : dirFields authTable authExample "nc".toList = some "00000001".toList := by decide +kernel
example : dirFields authTable authExample "realm".toList = none := by decide +kernel

end Osip
