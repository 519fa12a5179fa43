import Verif.Parse.PropsSmall

/-!
# C71: generic parameters
-/

set_option autoImplicit false

namespace Osip

/-! ## Specification -/

/-- The text between the quotes of a quoted string: a quote or backslash only after a backslash. -/
inductive QText : Str → Prop
  | nil : QText []
  | char {c : Char} {t : Str} : c ≠ '"' → c ≠ '\\' → QText t → QText (c :: t)
  | esc {c : Char} {t : Str} : QText t → QText ('\\' :: c :: t)

/-- A parameter value: it is neither empty nor blank, does not start with a comma, and a
semicolon occurs in it only inside a quoted string at its start. -/
inductive WfValue : Str → Prop
  | plain {sp t : Str} {c : Char} : (∀ x ∈ sp, x = ' ' ∨ x = '\t') → c ∉ [' ', '\t', ',', '"'] →
      ';' ∉ c :: t → Str.Ok (c :: t) → WfValue (sp ++ c :: t)
  | quoted {sp body tail : Str} : (∀ x ∈ sp, x = ' ') → QText body → body.Ok → tail.Ok → ';' ∉ tail →
      WfValue (sp ++ '"' :: (body ++ '"' :: tail))

/-- A parameter as it may be written, with blanks. -/
def TextParam (p : Param) : Prop :=
  p.gname ≠ [] ∧ p.gname.Ok ∧ ';' ∉ p.gname ∧ '=' ∉ p.gname ∧ ∀ v ∈ p.gvalue, WfValue v

/-- A parameter which survives. -/
def WfParam (p : Param) : Prop :=
  TextParam p ∧ Trimmed p.gname ∧ ∀ v ∈ p.gvalue, Trimmed v

/-- The parameter without outer blanks. -/
def trimParam (p : Param) : Param := ⟨trim p.gname, p.gvalue.map trim⟩

/-! ## Quoted strings -/

theorem tb_snoc (p : Str) (c : Char) : ((p ++ [c]).reverse.takeWhile (· = '\\')).length =
    if c = '\\' then (p.reverse.takeWhile (· = '\\')).length + 1 else 0 := by
  by_cases h : c = '\\' <;> simp [h]

theorem qtext_run {body : Str} (h : QText body) : ∀ (p rest : Str),
    (p.reverse.takeWhile (· = '\\')).length % 2 = 0 →
    ((p ++ body).reverse.takeWhile (· = '\\')).length % 2 = 0 ∧
      ∀ j, p.length ≤ j → j < p.length + body.length → ¬ UnescapedQuote (p ++ (body ++ rest)) j := by
  induction h with
  | nil => intro p rest hp; exact ⟨by simpa using hp, fun j h1 h2 => by simp at h2; omega⟩
  | @char c t h1 h2 _ ih =>
    intro p rest hp
    have hp' : ((p ++ [c]).reverse.takeWhile (· = '\\')).length % 2 = 0 := by rw [tb_snoc, if_neg h2]
    obtain ⟨i1, i2⟩ := ih (p ++ [c]) rest hp'
    simp only [List.append_assoc, List.cons_append, List.nil_append] at i1 i2 ⊢
    refine ⟨i1, fun j hj1 hj2 => ?_⟩
    by_cases hj : j = p.length
    · subst hj
      rintro ⟨hu, _⟩
      simp at hu
      exact h1 hu
    · exact i2 j (by simp; omega) (by simp at hj2 ⊢; omega)
  | @esc c t _ ih =>
    intro p rest hp
    have e1 : ((p ++ ['\\']).reverse.takeWhile (· = '\\')).length =
        (p.reverse.takeWhile (· = '\\')).length + 1 := by rw [tb_snoc, if_pos rfl]
    have hp' : ((p ++ ['\\'] ++ [c]).reverse.takeWhile (· = '\\')).length % 2 = 0 := by
      rw [tb_snoc]
      split
      · rw [e1]; omega
      · rfl
    obtain ⟨i1, i2⟩ := ih (p ++ ['\\'] ++ [c]) rest hp'
    simp only [List.append_assoc, List.cons_append, List.nil_append] at i1 i2 ⊢
    refine ⟨i1, fun j hj1 hj2 => ?_⟩
    by_cases hj : j = p.length
    · subst hj
      rintro ⟨hu, _⟩
      simp at hu
    · by_cases hj' : j = p.length + 1
      · subst hj'
        rintro ⟨_, hu⟩
        have : backslashesBefore (p ++ '\\' :: c :: (t ++ rest)) (p.length + 1) =
            ((p ++ ['\\']).reverse.takeWhile (· = '\\')).length := by
          have := backslashes_append (p ++ ['\\']) (c :: (t ++ rest))
          simpa using this
        rw [this, e1] at hu
        omega
      · exact i2 j (by simp; omega) (by simp at hj2 ⊢; omega)

theorem quote_find_qtext {body rest : Str} (h : QText body) (hb : body.Ok) (hr : rest.Ok) (r : List Char) :
    cquote_find (body ++ ('"' :: rest ++ NUL :: r)) = some (some ('"' :: rest ++ NUL :: r)) := by
  have hs : Str.Ok (body ++ '"' :: rest) := ok_append hb (ok_cons.2 ⟨by decide, hr⟩)
  obtain ⟨res, h1, h2⟩ := c41_quote_find hs r
  obtain ⟨i1, i2⟩ := qtext_run h [] ('"' :: rest) (by simp)
  simp only [List.nil_append, List.length_nil, Nat.zero_add] at i1 i2
  have hu : UnescapedQuote (body ++ '"' :: rest) body.length :=
    ⟨by simp, by rw [backslashes_append]; exact i1⟩
  simp only [List.append_assoc] at h1
  unfold cquote_find
  rw [h1]
  cases res with
  | none => exact absurd hu (h2 body.length (Nat.zero_le _))
  | some i =>
    obtain ⟨j, rfl, _, hj, hj'⟩ := h2
    have : j = body.length := by
      rcases Nat.lt_trichotomy j body.length with hlt | he | hgt
      · exact absurd hj (i2 j (Nat.zero_le _) hlt)
      · exact he
      · exact absurd hu (hj' body.length (Nat.zero_le _) hgt)
    subst this
    simp [Option.bind_eq_bind]

/-! ## Searching -/

theorem skipChars_run {cs : List Char} (w : List Char) (hw : ∀ x ∈ w, x ∈ cs) {c : Char} (hc : c ∉ cs)
    (t : List Char) : skipChars cs (w ++ c :: t) = some (c :: t) := by
  induction w with
  | nil => simp [skipChars, hc]
  | cons d w ih =>
    simp only [List.cons_append, skipChars]
    rw [if_pos (hw d (by simp)), ih (fun x hx => hw x (by simp [hx]))]

theorem skipChars_into {cs : List Char} (hn : NUL ∉ cs) (t : Str) (r : List Char) :
    ∃ w u, t = w ++ u ∧ (∀ x ∈ w, x ∈ cs) ∧ skipChars cs (t ++ NUL :: r) = some (u ++ NUL :: r) := by
  induction t with
  | nil => exact ⟨[], [], rfl, by simp, by simp [skipChars, hn]⟩
  | cons d t ih =>
    by_cases hd : d ∈ cs
    · obtain ⟨w, u, rfl, h1, h2⟩ := ih
      refine ⟨d :: w, u, rfl, ?_, ?_⟩
      · intro x hx
        rcases List.mem_cons.1 hx with rfl | hx
        · exact hd
        · exact h1 x hx
      · simpa [skipChars, hd] using h2
    · exact ⟨[], d :: t, rfl, by simp, by simp [skipChars, hd]⟩

theorem next_separator_found {f b : Char} {a u : Str} (ha : a.Ok) (hf : f ∉ a) (hb : b ∉ a) (hfb : f ≠ b)
    (hbn : b ≠ NUL) (hfn : f ≠ NUL) (hu : u.Ok) (r : List Char) :
    next_separator (a ++ (f :: u ++ NUL :: r)) f b = some (some (f :: u ++ NUL :: r)) := by
  have h1 := cstrchr_found ha hf (u ++ NUL :: r)
  unfold next_separator
  simp only [List.cons_append] at h1 ⊢
  simp only [h1, Option.bind_eq_bind, Option.bind_some]
  have hs : Str.Ok (a ++ f :: u) := ok_append ha (ok_cons.2 ⟨hfn, hu⟩)
  rcases cstrchr_cases (c := b) hs hbn r with ⟨_, h⟩ | ⟨a', b', e, hb', h⟩
  · simp only [List.append_assoc, List.cons_append] at h
    simp [h]
  · simp only [List.append_assoc, List.cons_append] at h
    simp only [h, Option.bind_some]
    rw [if_pos]
    · rfl
    · have hl := congrArg List.length e
      have : a.length < a'.length := by
        rcases Nat.lt_or_ge a.length a'.length with h | h
        · exact h
        · exfalso
          have h3 := congrArg (·[a'.length]?) e
          simp only [List.getElem?_append_right (Nat.le_refl _), Nat.sub_self, List.getElem?_cons_zero] at h3
          rcases Nat.lt_or_ge a'.length a.length with h4 | h4
          · rw [List.getElem?_append_left h4] at h3
            exact hb (List.mem_of_getElem? h3)
          · have : a'.length = a.length := by omega
            rw [this] at h3
            simp at h3
            exact hfb h3
      simp only [pdiff, List.length_cons, List.length_append] at hl ⊢
      omega

theorem next_separator_before {f b : Char} {a u : Str} (ha : a.Ok) (hf : f ∉ a) (hb : b ∉ a) (hfb : f ≠ b)
    (hbn : b ≠ NUL) (hfn : f ≠ NUL) (hu : u.Ok) (r : List Char) :
    next_separator (a ++ (b :: u ++ NUL :: r)) f b = some none := by
  have h1 := cstrchr_found ha hb (u ++ NUL :: r)
  have hs : Str.Ok (a ++ b :: u) := ok_append ha (ok_cons.2 ⟨hbn, hu⟩)
  unfold next_separator
  rcases cstrchr_cases (c := f) hs hfn r with ⟨_, h⟩ | ⟨a', b', e, hf', h⟩
  · simp only [List.append_assoc, List.cons_append] at h
    simp [h]
  · simp only [List.append_assoc, List.cons_append] at h h1
    simp only [List.cons_append, h, h1, Option.bind_eq_bind, Option.bind_some]
    rw [if_neg]
    · rfl
    · have hl := congrArg List.length e
      have : a.length < a'.length := by
        rcases Nat.lt_or_ge a.length a'.length with h | h
        · exact h
        · exfalso
          have h3 := congrArg (·[a'.length]?) e
          simp only [List.getElem?_append_right (Nat.le_refl _), Nat.sub_self, List.getElem?_cons_zero] at h3
          rcases Nat.lt_or_ge a'.length a.length with h4 | h4
          · rw [List.getElem?_append_left h4] at h3
            exact hf (List.mem_of_getElem? h3)
          · have : a'.length = a.length := by omega
            rw [this] at h3
            simp at h3
            exact hfb h3.symm
      simp only [pdiff, List.length_cons, List.length_append] at hl ⊢
      omega

theorem next_separator_none {f b : Char} {a : Str} (ha : a.Ok) (hf : f ∉ a) (hfn : f ≠ NUL) (r : List Char) :
    next_separator (a ++ NUL :: r) f b = some none := by
  simp [next_separator, cstrchr_none ha hf hfn]

/-- What follows a parameter: nothing or another parameter. -/
def Follows (rest : Str) : Prop := rest = [] ∨ ∃ t, rest = ';' :: t

theorem cstrchr_follows {a rest : Str} (ha : a.Ok) (hs : ';' ∉ a) (hr : rest.Ok) (hf : Follows rest)
    (r : List Char) : cstrchr ';' (a ++ (rest ++ NUL :: r)) =
      some (if rest = [] then none else some (rest ++ NUL :: r)) := by
  rcases hf with rfl | ⟨t, rfl⟩
  · simpa using cstrchr_none ha hs (by decide) r
  · simpa using cstrchr_found ha hs (t ++ NUL :: r)

theorem wfValue_ok {v : Str} (h : WfValue v) : v.Ok ∧ v ≠ [] := by
  cases h with
  | plain h1 _ _ h4 =>
    refine ⟨ok_append ?_ h4, by simp⟩
    intro hm
    rcases h1 _ hm with h | h <;> exact absurd h (by decide)
  | quoted h1 _ h3 h4 _ =>
    refine ⟨ok_append ?_ (ok_cons.2 ⟨by decide, ok_append h3 (ok_cons.2 ⟨by decide, h4⟩)⟩), by simp⟩
    intro hm
    exact absurd (h1 _ hm) (by decide)

theorem paramSeps_none {name rest : Str} (h2 : name.Ok) (h3 : ';' ∉ name) (h4 : '=' ∉ name) (hr : rest.Ok)
    (hf : Follows rest) (r : List Char) : paramSeps (';' :: (name ++ (rest ++ NUL :: r))) =
      some (none, if rest = [] then none else some (rest ++ NUL :: r)) := by
  unfold paramSeps
  have h := cstrchr_follows h2 h3 hr hf r
  have h' : next_separator (name ++ (rest ++ NUL :: r)) '=' ';' = some none := by
    rcases hf with rfl | ⟨t, rfl⟩
    · simpa using next_separator_none (b := ';') h2 h4 (by decide) r
    · exact next_separator_before h2 h4 h3 (by decide) (by decide) (by decide) (ok_cons.1 hr).2 r
  simp [h, h']

theorem paramSeps_some {name v rest : Str} (h2 : name.Ok) (h3 : ';' ∉ name) (h4 : '=' ∉ name) (hv : WfValue v)
    (hr : rest.Ok) (hf : Follows rest) (r : List Char) :
    paramSeps (';' :: (name ++ '=' :: (v ++ (rest ++ NUL :: r)))) =
      some (some ('=' :: (v ++ (rest ++ NUL :: r))), if rest = [] then none else some (rest ++ NUL :: r)) := by
  have hvo := (wfValue_ok hv).1
  have hsep := next_separator_found h2 h4 h3 (by decide) (by decide) (by decide) (ok_append hvo hr) r
  simp only [List.append_assoc, List.cons_append] at hsep
  unfold paramSeps
  simp only [List.drop_succ_cons, List.drop_zero, hsep, Option.bind_eq_bind, Option.bind_some]
  have hne : Str.Ok (name ++ ['=']) := ok_append h2 (ok_cons.2 ⟨by decide, by simp [Str.Ok]⟩)
  cases hv with
  | @plain sp t c h5 h6 h7 h8 =>
    simp only [List.mem_cons, not_or, List.not_mem_nil, not_false_eq_true, and_true] at h6 h7
    have hsp : Str.Ok sp := (ok_append_iff.1 hvo).1
    have hspn : ';' ∉ sp := fun hm => by rcases h5 _ hm with h | h <;> exact absurd h (by decide)
    have hc := cstrchr_follows (a := name ++ '=' :: (sp ++ c :: t)) (rest := rest)
      (ok_append h2 (ok_cons.2 ⟨by decide, ok_append hsp h8⟩)) (by simp [h3, h7, hspn]) hr hf r
    simp only [List.append_assoc, List.cons_append] at hc ⊢
    simp only [hc, Option.bind_some]
    obtain ⟨w, u, e, hw, hsk⟩ := skipChars_into (cs := [' ']) (by decide) (sp ++ (c :: t ++ rest)) r
    simp only [List.append_assoc, List.cons_append] at hsk
    simp only [hsk, Option.bind_some]
    have hhead : ∃ d u', u = d :: u' ∧ d ≠ '"' := by
      clear hsk hc hsep
      induction sp generalizing w with
      | nil =>
        cases w with
        | nil => simp at e; exact ⟨c, t ++ rest, e.symm, h6.2.2.2⟩
        | cons x w =>
          simp at e
          exact absurd (by simpa using hw x (by simp)) (e.1 ▸ h6.1)
      | cons y sp ih =>
        have hy := h5 y (by simp)
        cases w with
        | nil =>
          simp at e
          refine ⟨y, _, e.symm, ?_⟩
          rcases hy with rfl | rfl <;> decide
        | cons x w =>
          simp at e
          exact ih (fun z hz => h5 z (by simp [hz])) (ok_append (ok_cons.1 hsp).2 h8) (ok_cons.1 hsp).2
            (fun h => hspn (by simp [h])) w (by simpa using e.2) (fun z hz => hw z (by simp [hz]))
    obtain ⟨d, u', rfl, hd⟩ := hhead
    simp [deref, hd]
  | @quoted sp body tail h5 h6 h7 h8 h9 =>
    have hsk := skipChars_run (cs := [' ']) sp (fun x hx => by simp [h5 x hx]) (c := '"') (by decide)
      (body ++ '"' :: (tail ++ (rest ++ NUL :: r)))
    have hqf := quote_find_qtext h6 h7 (rest := tail ++ rest) (ok_append h8 hr) r
    have hcq := cstrchr_follows (a := '"' :: tail) (rest := rest) (ok_cons.2 ⟨by decide, h8⟩)
      (by simp [h9]) hr hf r
    have hspn : ';' ∉ sp := fun hm => absurd (h5 _ hm) (by decide)
    simp only [List.append_assoc, List.cons_append] at hsk hqf hcq ⊢
    have hall : Str.Ok (name ++ '=' :: (sp ++ '"' :: (body ++ '"' :: (tail ++ rest)))) := by
      have : sp ++ '"' :: (body ++ '"' :: (tail ++ rest)) = (sp ++ '"' :: (body ++ '"' :: tail)) ++ rest := by simp
      rw [this]
      exact ok_append h2 (ok_cons.2 ⟨by decide, ok_append hvo hr⟩)
    rcases cstrchr_cases (c := ';') hall (by decide) r with ⟨hno, hc⟩ | ⟨a', b', e, hna, hc⟩
    · simp only [List.append_assoc, List.cons_append] at hc
      simp only [hc, hsk, Option.bind_some, deref, List.head?_cons, if_true]
      have : rest = [] := by
        rcases hf with h | ⟨t, rfl⟩
        · exact h
        · exact absurd (by simp) hno
      simp [this]
    · have e' := congrArg List.length e
      simp only [List.append_assoc, List.cons_append] at hc
      simp only [hc, hsk, Option.bind_some, deref, List.head?_cons, if_true]
      have hpos : name.length + 1 + sp.length < a'.length := by
        rcases Nat.lt_or_ge (name.length + 1 + sp.length) a'.length with h | h
        · exact h
        · exfalso
          have h3' := congrArg (·[a'.length]?) e
          simp only [List.getElem?_append_right (Nat.le_refl _), Nat.sub_self, List.getElem?_cons_zero] at h3'
          have e4 : name ++ '=' :: (sp ++ '"' :: (body ++ '"' :: (tail ++ rest))) =
              (name ++ '=' :: (sp ++ ['"'])) ++ (body ++ '"' :: (tail ++ rest)) := by simp
          rw [e4, List.getElem?_append_left (by simp; omega)] at h3'
          have := List.mem_of_getElem? h3'
          simp [h3, hspn] at this
      rw [if_pos]
      · simp only [List.drop_succ_cons, List.drop_zero, hqf, hcq, Option.bind_some]
        rfl
      · simp only [pdiff, List.length_cons, List.length_append] at e' ⊢
        omega

theorem paramValue_wf {v : Str} (hv : WfValue v) {rest : Str} (hr : rest.Ok) (r : List Char) :
    paramValue ('=' :: (v ++ (rest ++ NUL :: r))) (rest ++ NUL :: r) = some (.ok (some v)) := by
  obtain ⟨hvo, hne⟩ := wfValue_ok hv
  have h1 : ∃ c t, skipChars ['\t', ' '] (v ++ (rest ++ NUL :: r)) = some (c :: t) ∧ c ≠ ',' ∧ c ≠ NUL := by
    cases hv with
    | @plain sp t c h5 h6 h7 h8 =>
      simp only [List.mem_cons, not_or, List.not_mem_nil, not_false_eq_true, and_true] at h6
      refine ⟨c, t ++ (rest ++ NUL :: r), ?_, h6.2.2.1, (ok_cons.1 h8).1⟩
      have := skipChars_run (cs := ['\t', ' ']) sp (fun x hx => by rcases h5 x hx with rfl | rfl <;> simp)
        (c := c) (by simp [h6]) (t ++ (rest ++ NUL :: r))
      simpa using this
    | @quoted sp body tail h5 h6 h7 h8 h9 =>
      refine ⟨'"', body ++ '"' :: (tail ++ (rest ++ NUL :: r)), ?_, by decide, by decide⟩
      have := skipChars_run (cs := ['\t', ' ']) sp (fun x hx => by simp [h5 x hx])
        (c := '"') (by decide) (body ++ '"' :: (tail ++ (rest ++ NUL :: r)))
      simpa using this
  obtain ⟨c, t, h1, h2, h3⟩ := h1
  have e : pdiff (rest ++ NUL :: r) ('=' :: (v ++ (rest ++ NUL :: r))) = v.length + 1 := by
    have := pdiff_app ('=' :: v) (rest ++ NUL :: r)
    simpa using this
  have hl : 0 < v.length := List.length_pos_iff.2 hne
  unfold paramValue
  simp only [List.drop_succ_cons, List.drop_zero, h1, Option.bind_eq_bind, Option.bind_some, deref,
    List.head?_cons, e]
  rw [if_pos ⟨h2, h3⟩, if_neg (by omega), strncpy_at hvo hr r (by omega)]
  rfl

/-! ## Properties -/

theorem params_ok {ps : List Param} (h : ∀ p ∈ ps, TextParam p) : Str.Ok (ps.flatMap paramToStr) := by
  induction ps with
  | nil => simp [Str.Ok]
  | cons p ps ih =>
    rw [List.flatMap_cons]
    refine ok_append ?_ (ih (fun q hq => h q (by simp [hq])))
    obtain ⟨_, h2, _, _, h5⟩ := h p (by simp)
    cases hv : p.gvalue with
    | none => simp only [paramToStr, hv]; exact ok_cons.2 ⟨by decide, h2⟩
    | some v =>
      simp only [paramToStr, hv]
      exact ok_cons.2 ⟨by decide, ok_append h2 (ok_cons.2 ⟨by decide, (wfValue_ok (h5 v hv)).1⟩)⟩

theorem params_follow (ps : List Param) : Follows (ps.flatMap paramToStr) := by
  cases ps with
  | nil => exact .inl rfl
  | cons p ps =>
    right
    rw [List.flatMap_cons]
    cases hv : p.gvalue with
    | none => exact ⟨p.gname ++ ps.flatMap paramToStr, by simp [paramToStr, hv]⟩
    | some v => exact ⟨p.gname ++ '=' :: v ++ ps.flatMap paramToStr, by simp [paramToStr, hv]⟩

theorem params_nil_iff (ps : List Param) : ps.flatMap paramToStr = [] ↔ ps = [] := by
  constructor
  · intro h
    cases ps with
    | nil => rfl
    | cons p ps =>
      rw [List.flatMap_cons] at h
      cases hv : p.gvalue <;> simp [paramToStr, hv] at h
  · rintro rfl; rfl

theorem parseallLoop_wf (ps : List Param) (hne : ps ≠ []) (h : ∀ p ∈ ps, TextParam p) (acc : List Param) (n : Nat)
    (hn : ps.length ≤ n) (r : List Char) :
    parseallLoop n acc (ps.flatMap paramToStr ++ NUL :: r) = some (OSIP_SUCCESS, acc ++ ps.map trimParam) := by
  induction ps generalizing acc n with
  | nil => exact absurd rfl hne
  | cons p ps ih =>
    obtain ⟨n, rfl⟩ : ∃ k, n = k + 1 := ⟨n - 1, by simp at hn; omega⟩
    obtain ⟨h1, h2, h3, h4, h5⟩ := h p (by simp)
    have hps : ∀ q ∈ ps, TextParam q := fun q hq => h q (by simp [hq])
    have hrok := params_ok hps
    have hfol := params_follow ps
    have hnil := params_nil_iff ps
    have hrec : ps ≠ [] → ∀ acc, parseallLoop n acc (ps.flatMap paramToStr ++ NUL :: r) = some (OSIP_SUCCESS, acc ++ ps.map trimParam) :=
      fun hx acc => ih hx hps acc n (by simp at hn; omega)
    rw [List.flatMap_cons]
    generalize ps.flatMap paramToStr = rest at *
    obtain ⟨name, value⟩ := p
    simp only at h1 h2 h3 h4 h5
    have hlen : 0 < name.length := List.length_pos_iff.2 h1
    cases value with
    | none =>
      simp only [paramToStr, List.cons_append, List.append_assoc]
      have hseps := paramSeps_none h2 h3 h4 hrok hfol r
      have e : pdiff (rest ++ NUL :: r) (';' :: (name ++ (rest ++ NUL :: r))) = name.length + 1 := by
        have := pdiff_app (';' :: name) (rest ++ NUL :: r)
        simpa using this
      have hcopy := strncpy_at h2 hrok r (n := (name.length : Int) + 1 - 1) (by omega)
      unfold parseallLoop
      rw [hseps]
      by_cases hp : ps = []
      · have : rest = [] := hnil.2 hp
        subst this; subst hp
        simp only [List.nil_append] at e hcopy
        have hcs : cstr (';' :: (name ++ NUL :: r)) = some (';' :: name) :=
          cstr_at (s := ';' :: name) (ok_cons.2 ⟨by decide, h2⟩) r
        simp only [if_true, List.nil_append, Option.bind_eq_bind, Option.bind_some, hcs]
        have hd : (';' :: (name ++ NUL :: r)).drop (';' :: name).length = NUL :: r := by simp
        rw [hd, e, if_neg (by omega)]
        simp only [List.drop_succ_cons, List.drop_zero, hcopy, Option.bind_some]
        rfl
      · have : rest ≠ [] := fun hx => hp (hnil.1 hx)
        simp only [if_neg this, Option.bind_eq_bind, Option.bind_some, Option.getD_none]
        rw [e, if_neg (by omega)]
        simp only [List.drop_succ_cons, List.drop_zero, hcopy, Option.bind_some]
        rw [hrec hp]
        simp [param_add, trimParam]
    | some v =>
      have hv := h5 v rfl
      simp only [paramToStr, List.cons_append, List.append_assoc]
      have hseps := paramSeps_some h2 h3 h4 hv hrok hfol r
      have hpv := paramValue_wf hv hrok r
      have e : pdiff ('=' :: (v ++ (rest ++ NUL :: r))) (';' :: (name ++ '=' :: (v ++ (rest ++ NUL :: r)))) = name.length + 1 := by
        have := pdiff_app (';' :: name) ('=' :: (v ++ (rest ++ NUL :: r)))
        simpa using this
      have hvo := (wfValue_ok hv).1
      have hcopy := strncpy_at h2 (b := '=' :: (v ++ rest)) (ok_cons.2 ⟨by decide, ok_append hvo hrok⟩) r
        (n := (name.length : Int) + 1 - 1) (by omega)
      simp only [List.cons_append, List.append_assoc] at hcopy
      unfold parseallLoop
      rw [hseps]
      by_cases hp : ps = []
      · have : rest = [] := hnil.2 hp
        subst this; subst hp
        simp only [List.nil_append] at e hcopy hpv
        have hcs := cstr_at (s := ';' :: (name ++ '=' :: v))
          (ok_cons.2 ⟨by decide, ok_append h2 (ok_cons.2 ⟨by decide, hvo⟩)⟩) r
        simp only [List.cons_append, List.append_assoc] at hcs
        simp only [if_true, List.nil_append, Option.bind_eq_bind, Option.bind_some, hcs]
        have hd : (';' :: (name ++ '=' :: (v ++ NUL :: r))).drop (';' :: (name ++ '=' :: v)).length = NUL :: r := by
          have := drop_len (s := ';' :: (name ++ '=' :: v)) (NUL :: r)
          simpa using this
        rw [hd, hpv]
        simp only [Option.bind_some]
        rw [e, if_neg (by omega)]
        simp only [List.drop_succ_cons, List.drop_zero, hcopy, Option.bind_some]
        rfl
      · have : rest ≠ [] := fun hx => hp (hnil.1 hx)
        simp only [if_neg this, Option.bind_eq_bind, Option.bind_some, Option.getD_some, hpv]
        rw [e, if_neg (by omega)]
        simp only [List.drop_succ_cons, List.drop_zero, hcopy, Option.bind_some]
        rw [hrec hp]
        simp [param_add, trimParam]

theorem params_length_le (ps : List Param) : ps.length ≤ (ps.flatMap paramToStr).length := by
  induction ps with
  | nil => simp
  | cons p ps ih =>
    rw [List.flatMap_cons]
    cases hv : p.gvalue <;> simp [paramToStr, hv] at ih ⊢ <;> omega

/-- **C71**. Every list of parameters, written with any blanks, is read: the same names and values without
outer blanks, in order, after those which were there. -/
theorem c71_params_parse (ps : List Param) (hne : ps ≠ []) (h : ∀ p ∈ ps, TextParam p) (acc : List Param)
    (r : List Char) : generic_param_parseall acc (ps.flatMap paramToStr ++ NUL :: r) =
      some (OSIP_SUCCESS, acc ++ ps.map fun p => ⟨trim p.gname, p.gvalue.map trim⟩) := by
  have := params_length_le ps
  exact parseallLoop_wf ps hne h acc _ (by simp only [List.length_append]; omega) r

/-- **C71**. Every list of parameters is read back. -/
theorem c71_params_round_trip (ps : List Param) (hne : ps ≠ []) (h : ∀ p ∈ ps, WfParam p) (acc : List Param)
    (r : List Char) :
    generic_param_parseall acc (ps.flatMap paramToStr ++ NUL :: r) = some (OSIP_SUCCESS, acc ++ ps) := by
  rw [c71_params_parse ps hne (fun p hp => (h p hp).1)]
  congr 3
  conv => rhs; rw [← List.map_id ps]
  refine List.map_congr_left fun p hp => ?_
  obtain ⟨_, h1, h2⟩ := h p hp
  obtain ⟨n, v⟩ := p
  cases v with
  | none => simp only [show trim n = n from h1]; rfl
  | some v => simp only [show trim n = n from h1, Option.map_some, show trim v = v from h2 v rfl]; rfl

theorem next_separator_into {t : Str} (ht : t.Ok) {f b : Char} (hf : f ≠ NUL) (hb : b ≠ NUL) (r : List Char) :
    next_separator (t ++ NUL :: r) f b = some none ∨
    ∃ a u, t = a ++ f :: u ∧ next_separator (t ++ NUL :: r) f b = some (some (f :: u ++ NUL :: r)) := by
  unfold next_separator
  rcases cstrchr_cases (c := f) ht hf r with ⟨_, h⟩ | ⟨a, u, e, _, h⟩
  · left; simp [h]
  · simp only [h, Option.bind_eq_bind, Option.bind_some]
    rcases cstrchr_cases (c := b) ht hb r with ⟨_, h'⟩ | ⟨a', u', _, _, h'⟩
    · right; exact ⟨a, u, e, by simp [h']⟩
    · simp only [h', Option.bind_some]
      split
      · right; exact ⟨a, u, e, rfl⟩
      · left; rfl

theorem cquote_find_into {t : Str} (ht : t.Ok) (r : List Char) : cquote_find (t ++ NUL :: r) = some none ∨
    ∃ a u, t = a ++ '"' :: u ∧ cquote_find (t ++ NUL :: r) = some (some ('"' :: u ++ NUL :: r)) := by
  obtain ⟨res, h1, h2⟩ := c41_quote_find ht r
  unfold cquote_find
  rw [h1]
  cases res with
  | none => left; rfl
  | some i =>
    right
    obtain ⟨j, rfl, _, ⟨hj, _⟩, _⟩ := h2
    obtain ⟨hlt, hget⟩ := List.getElem?_eq_some_iff.1 hj
    have e : t = t.take j ++ '"' :: t.drop (j + 1) := by
      conv => lhs; rw [← List.take_append_drop j t, List.drop_eq_getElem_cons hlt, hget]
    refine ⟨t.take j, t.drop (j + 1), e, ?_⟩
    have : (t ++ NUL :: r).drop j = '"' :: t.drop (j + 1) ++ NUL :: r := by
      rw [List.drop_append_of_le_length (by omega), List.drop_eq_getElem_cons hlt, hget]
    simp [this]

theorem paramSeps_into {c : Char} {t : Str} (ht : t.Ok) (r : List Char) :
    ∃ e cm, paramSeps (c :: (t ++ NUL :: r)) = some (e, cm) ∧
      (∀ x ∈ e, ∃ a u, t = a ++ '=' :: u ∧ x = '=' :: u ++ NUL :: r) ∧
      (∀ x ∈ cm, ∃ a u, t = a ++ ';' :: u ∧ x = ';' :: u ++ NUL :: r) := by
  unfold paramSeps
  obtain ⟨cm, hcm, hcm'⟩ : ∃ cm, cstrchr ';' (t ++ NUL :: r) = some cm ∧
      (∀ x ∈ cm, ∃ a u, t = a ++ ';' :: u ∧ x = ';' :: u ++ NUL :: r) := by
    rcases cstrchr_cases (c := ';') ht (by decide) r with ⟨_, h⟩ | ⟨a, u, e, _, h⟩
    · exact ⟨none, h, by simp⟩
    · exact ⟨_, h, fun x hx => ⟨a, u, e, by simpa using hx.symm⟩⟩
  simp only [List.drop_succ_cons, List.drop_zero, hcm, Option.bind_eq_bind, Option.bind_some]
  rcases next_separator_into ht (f := '=') (b := ';') (by decide) (by decide) r with h | ⟨a, u, e, h⟩
  · simp only [h, Option.bind_some]
    exact ⟨none, cm, rfl, by simp, hcm'⟩
  · simp only [h, Option.bind_some, List.cons_append, List.drop_succ_cons, List.drop_zero]
    have he : ∀ x ∈ some ('=' :: (u ++ NUL :: r)), ∃ a u, t = a ++ '=' :: u ∧ x = '=' :: u ++ NUL :: r :=
      fun x hx => ⟨a, u, e, by simpa using hx.symm⟩
    obtain ⟨w, v, e2, _, hsk⟩ := skipChars_into (cs := [' ']) (by decide) u r
    simp only [hsk, Option.bind_some]
    have hnn : ∀ k, (v ++ NUL :: r)[0]? = some k → True := fun _ _ => trivial
    cases v with
    | nil =>
      simp only [List.nil_append, deref, List.head?_cons, Option.bind_some]
      rw [if_neg (by decide)]
      exact ⟨_, cm, rfl, he, hcm'⟩
    | cons d v =>
      simp only [List.cons_append, deref, List.head?_cons, Option.bind_some]
      by_cases hd : d = '"'
      · rw [if_pos hd]
        cases cm with
        | none => exact ⟨_, none, rfl, he, by simp⟩
        | some x =>
          simp only
          split
          · have hvo : Str.Ok v := by
              intro hm; apply ht; rw [e, e2]; simp [hm]
            rcases cquote_find_into hvo r with hq | ⟨a', u', e3, hq⟩
            · simp only [List.drop_succ_cons, List.drop_zero, hq, Option.bind_some]
              exact ⟨_, none, rfl, he, by simp⟩
            · simp only [List.drop_succ_cons, List.drop_zero, hq, Option.bind_some]
              have hok : Str.Ok ('"' :: u') := by
                intro hm; apply hvo; rw [e3]; simp at hm ⊢; simp [hm]
              rcases cstrchr_cases (c := ';') hok (by decide) r with ⟨_, h'⟩ | ⟨a'', u'', e4, _, h'⟩
              · simp only [h', Option.bind_some]
                exact ⟨_, none, rfl, he, by simp⟩
              · simp only [h', Option.bind_some]
                refine ⟨_, _, rfl, he, fun y hy => ⟨a ++ '=' :: (w ++ d :: (a' ++ a'')), u'', ?_, by simpa using hy.symm⟩⟩
                rw [e, e2, e3, e4]
                simp
          · exact ⟨_, _, rfl, he, hcm'⟩
      · rw [if_neg hd]
        exact ⟨_, cm, rfl, he, hcm'⟩

theorem strncpy_total {t : Str} (ht : t.Ok) (r : List Char) {n : Int} (hn : 0 ≤ n) :
    strncpy (t ++ NUL :: r) n = some (t.take n.toNat) := by
  rw [strncpy, cstr_at ht]
  simp only [Option.bind_eq_bind, Option.bind_some]
  rw [if_pos hn]

theorem paramValue_into {u : Str} (hu : u.Ok) (r comma : List Char) :
    ∃ res, paramValue ('=' :: u ++ NUL :: r) comma = some res := by
  unfold paramValue
  obtain ⟨w, v, e, _, hsk⟩ := skipChars_into (cs := ['\t', ' ']) (by decide) u r
  simp only [List.cons_append, List.drop_succ_cons, List.drop_zero, hsk, Option.bind_eq_bind, Option.bind_some]
  obtain ⟨x, hx⟩ : ∃ x, deref (v ++ NUL :: r) = some x := by cases v <;> exact ⟨_, rfl⟩
  simp only [hx, Option.bind_some]
  split
  · split
    · exact ⟨_, rfl⟩
    · rw [strncpy_total hu r (by omega)]
      exact ⟨_, rfl⟩
  · exact ⟨_, rfl⟩

theorem parseallLoop_into (n : Nat) {c : Char} {t : Str} (hc : c ≠ NUL) (ht : t.Ok) (hn : t.length < n)
    (acc : List Param) (r : List Char) :
    ∃ res, parseallLoop n acc (c :: (t ++ NUL :: r)) = some res := by
  induction n generalizing c t acc with
  | zero => omega
  | succ n ih =>
    obtain ⟨e, cm, hseps, he, hcm⟩ := paramSeps_into (c := c) ht r
    unfold parseallLoop
    simp only [hseps, Option.bind_eq_bind, Option.bind_some]
    cases cm with
    | some x =>
      obtain ⟨a, u, e2, hx⟩ := hcm x rfl
      cases e with
      | none =>
        simp only [Option.bind_some]
        split
        · exact ⟨_, rfl⟩
        · simp only [List.drop_succ_cons, List.drop_zero]
          rw [strncpy_total ht r (by omega)]
          simp only [Option.bind_some]
          subst hx
          refine ih (by decide) (fun hm => ht (by rw [e2]; simp [hm])) ?_ _
          rw [e2] at hn; simp at hn; omega
      | some y =>
        obtain ⟨a', u', e3, rfl⟩ := he y rfl
        obtain ⟨pv, hpv⟩ := paramValue_into (u := u') (fun hm => ht (by rw [e3]; simp [hm])) r x
        simp only [hpv, Option.bind_some]
        cases pv with
        | error i => exact ⟨_, rfl⟩
        | ok v =>
          simp only
          split
          · exact ⟨_, rfl⟩
          · simp only [List.drop_succ_cons, List.drop_zero]
            rw [strncpy_total ht r (by omega)]
            simp only [Option.bind_some]
            subst hx
            refine ih (by decide) (fun hm => ht (by rw [e2]; simp [hm])) ?_ _
            rw [e2] at hn; simp at hn; omega
    | none =>
      have hcs := cstr_at (s := c :: t) (ok_cons.2 ⟨hc, ht⟩) r
      simp only [List.cons_append] at hcs
      simp only [hcs, Option.bind_some]
      cases e with
      | none =>
        simp only
        split
        · exact ⟨_, rfl⟩
        · simp only [List.drop_succ_cons, List.drop_zero]
          rw [strncpy_total ht r (by omega)]
          exact ⟨_, rfl⟩
      | some y =>
        obtain ⟨a', u', e3, rfl⟩ := he y rfl
        obtain ⟨pv, hpv⟩ := paramValue_into (fun hm => ht (by rw [e3]; simp [hm])) r
          ((c :: (t ++ NUL :: r)).drop (c :: t).length) (u := u')
        simp only [hpv, Option.bind_some]
        cases pv with
        | error i => exact ⟨_, rfl⟩
        | ok v =>
          simp only
          split
          · exact ⟨_, rfl⟩
          · simp only [List.drop_succ_cons, List.drop_zero]
            rw [strncpy_total ht r (by omega)]
            exact ⟨_, rfl⟩

/-- **C71**. On every nonempty string, whatever it contains and whatever follows its terminator, the
parameter parser ends and reads nothing outside the string and its terminator. -/
theorem c71_params_in_bounds {s : Str} (hs : s.Ok) (hne : s ≠ []) (acc : List Param) (r : List Char) :
    ∃ res, generic_param_parseall acc (s ++ NUL :: r) = some res := by
  cases s with
  | nil => exact absurd rfl hne
  | cons c t =>
    obtain ⟨h1, h2⟩ := ok_cons.1 hs
    exact parseallLoop_into _ h1 h2 (by simp; omega) acc r

/-- **C71** does not hold for all values: a value which starts with a comma is lost. -/
theorem c71_violated : generic_param_parseall []
    (Str.buf (([⟨"x".toList, some ",y".toList⟩] : List Param).flatMap paramToStr)) = some (OSIP_SUCCESS, [⟨"x".toList, none⟩]) := by
  decide +kernel

example : generic_param_parseall [] (Str.buf ";tag=a1;q= \"x;\\\"y\";lr".toList) = some (OSIP_SUCCESS,
    [⟨"tag".toList, some "a1".toList⟩, ⟨"q".toList, some "\"x;\\\"y\"".toList⟩, ⟨"lr".toList, none⟩]) := by decide +kernel

example : generic_param_parseall [] (Str.buf "; tag\t=a;lr;x=\"a;\\\"b\" ;y= ,z;q=".toList) =
    some (0, [⟨"tag".toList, some "a".toList⟩, ⟨"lr".toList, none⟩, ⟨"x".toList, some "\"a;\\\"b\"".toList⟩,
      ⟨"y".toList, none⟩, ⟨"q".toList, none⟩]) := by decide +kernel

end Osip
