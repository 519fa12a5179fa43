import Verif.Parse.PropsSafe

/-!
# C127: a header which was read is written so that it is read the same
-/

set_option autoImplicit false

namespace Osip

/-! ## Specification -/

/-- No tab, CR or LF. -/
def NoTab (s : Str) : Prop := '\t' ∉ s ∧ '\r' ∉ s ∧ '\n' ∉ s

/-- A list of parameters of which none has an empty name or an empty value. -/
def NoneEmpty (ps : List Param) : Prop := ∀ p ∈ ps, p.gname ≠ [] ∧ p.gvalue ≠ some []

/-- The names and values which were read are not empty. (A blank name or value is read as an empty one.) -/
def NothingEmpty : HeaderVal → Prop
  | .entry e => NoneEmpty e.gen_params
  | .media ct => NoneEmpty ct.gen_params ∧ ct.subtype ≠ some []
  | _ => True

/-- The header is written, and what is written is read as the same header. -/
def WrittenBack (fresh : Nat → Buf) (sscanf : Str → Option Nat) (k : Setter) (x : HeaderVal) : Prop :=
  ∃ text, headerToStr fresh k x = some (OSIP_SUCCESS, some text) ∧
    parseHeader sscanf k (some (Str.buf text)) = some (OSIP_SUCCESS, x)

/-! ## Lemmas -/

theorem noTab_append {a b : Str} : NoTab (a ++ b) ↔ NoTab a ∧ NoTab b := by
  simp only [NoTab, List.mem_append, not_or]; grind

theorem noTab_cons {c : Char} {b : Str} (h : NoTab (c :: b)) : NoTab b := by
  simp only [NoTab, List.mem_cons, not_or] at h; exact ⟨h.1.2, h.2.1.2, h.2.2.2⟩

theorem blank_space {c : Char} {s : Str} (h : NoTab s) (hm : c ∈ s) (hb : isBlank c = true) : c = ' ' := by
  rcases List.mem_cons.1 (isBlank_iff.1 hb) with rfl | hb
  · rfl
  · simp at hb
    rcases hb with rfl | rfl | rfl
    · exact absurd hm h.1
    · exact absurd hm h.2.1
    · exact absurd hm h.2.2

/-- Outer blanks are cut off: what is left is a part of the string. -/
theorem trim_part (s : Str) : ∃ w₁ w₂, s = w₁ ++ (trim s ++ w₂) ∧ (∀ c ∈ w₁, isBlank c = true) ∧ ∀ c ∈ w₂, isBlank c = true := by
  rcases trim_cases s with ⟨h, e⟩ | ⟨w₁, m, w₂, a, z, m₁, m₂, e, h1, h2, ha, hz, e1, e2⟩
  · exact ⟨s, [], by simp [e], h, by simp⟩
  · refine ⟨w₁, w₂, ?_, h1, h2⟩
    have := trim_mid h1 h2 ha hz e1 e2
    rw [← e] at this
    rw [this, e, List.append_assoc]

theorem trim_mem {s : Str} {c : Char} (h : c ∉ s) : c ∉ trim s := by
  obtain ⟨w₁, w₂, e, _, _⟩ := trim_part s
  intro hm
  exact h (by rw [e]; simp [hm])

theorem trim_end {s : Str} {a : Char} {t : Str} (hs : s = a :: t) (ha : isBlank a = false) :
    ∃ t' w, trim s = a :: t' ∧ t = t' ++ w ∧ ∀ c ∈ w, isBlank c = true := by
  obtain ⟨w₁, w₂, e, h1, h2⟩ := trim_part s
  cases w₁ with
  | cons x w₁ =>
    rw [hs] at e
    simp only [List.cons_append, List.cons.injEq] at e
    have := h1 x (by simp)
    rw [← e.1, ha] at this
    exact absurd this (by simp)
  | nil =>
    cases ht : trim s with
    | nil =>
      rw [ht, hs] at e
      simp only [List.nil_append] at e
      have := h2 a (by rw [← e]; simp)
      rw [ha] at this
      exact absurd this (by simp)
    | cons x t' =>
      rw [ht, hs] at e
      simp only [List.nil_append, List.cons_append, List.cons.injEq] at e
      exact ⟨t', w₂, by rw [e.1], e.2, h2⟩

theorem trim_front {w s : Str} (h : ∀ c ∈ w, isBlank c = true) : trim (w ++ s) = trim s := by
  rw [trim_eq, trim_eq, dropWhile_append_blank h]

theorem qtext_of {body : Str} : ∀ (p rest : Str), (p.reverse.takeWhile (· = '\\')).length % 2 = 0 →
    (∀ j, p.length ≤ j → j < p.length + body.length → ¬ UnescapedQuote (p ++ (body ++ rest)) j) →
    ((p ++ body).reverse.takeWhile (· = '\\')).length % 2 = 0 → QText body := by
  induction hn : body.length using Nat.strongRecOn generalizing body with
  | _ n ih =>
    intro p rest hp hq he
    subst hn
    match body with
    | [] => exact .nil
    | c :: t =>
      by_cases h1 : c = '"'
      · subst h1
        exfalso
        refine hq p.length (Nat.le_refl _) (by simp) ⟨by simp, ?_⟩
        rw [backslashes_append]; exact hp
      · by_cases h2 : c = '\\'
        · subst h2
          match t with
          | [] =>
            rw [tb_snoc, if_pos rfl] at he
            omega
          | d :: t =>
            refine .esc (ih t.length (by simp; omega) rfl (p ++ ['\\'] ++ [d]) rest ?_ ?_ ?_)
            · rw [tb_snoc]
              split
              · rw [tb_snoc, if_pos rfl]; omega
              · rfl
            · intro j hj1 hj2
              have := hq j (by simp at hj1; omega) (by simp at hj2 ⊢; omega)
              simpa using this
            · simpa using he
        · refine .char h1 h2 (ih t.length (by simp) rfl (p ++ [c]) rest ?_ ?_ ?_)
          · rw [tb_snoc, if_neg h2]
          · intro j hj1 hj2
            have := hq j (by simp at hj1; omega) (by simp at hj2 ⊢; omega)
            simpa using this
          · simpa using he

/-- No quote in `q` is the end of a quoted string. -/
def NoEnd (q : Str) : Prop := ∀ j, ¬ UnescapedQuote q j

theorem quoted_or_open {q : Str} (hq : q.Ok) : NoEnd q ∨ ∃ body tail, q = body ++ '"' :: tail ∧ QText body := by
  obtain ⟨res, _, h⟩ := c41_quote_find hq []
  cases res with
  | none => exact .inl fun j => h j (Nat.zero_le _)
  | some i =>
    right
    obtain ⟨j, _, _, hj, hb⟩ := h
    obtain ⟨hlt, hget⟩ := List.getElem?_eq_some_iff.1 hj.1
    have e : q = q.take j ++ '"' :: q.drop (j + 1) := by
      conv => lhs; rw [← List.take_append_drop j q, List.drop_eq_getElem_cons hlt, hget]
    refine ⟨_, _, e, ?_⟩
    refine qtext_of [] ('"' :: q.drop (j + 1)) (by simp) ?_ ?_
    · intro k hk1 hk2
      rw [List.nil_append, ← e]
      exact hb k (Nat.zero_le _) (by simp at hk2; omega)
    · have := hj.2
      simpa [backslashesBefore] using this

theorem noEnd_prefix {a b : Str} (h : NoEnd (a ++ b)) : NoEnd a := by
  rintro j ⟨h1, h2⟩
  obtain ⟨hlt, _⟩ := List.getElem?_eq_some_iff.1 h1
  refine h j ⟨by rw [List.getElem?_append_left hlt]; exact h1, ?_⟩
  rw [backslashesBefore, List.take_append_of_le_length (by omega)]
  exact h2

theorem noEnd_find {q : Str} (hq : q.Ok) (h : NoEnd q) (r : List Char) : cquote_find (q ++ NUL :: r) = some none := by
  obtain ⟨res, h1, h2⟩ := c41_quote_find hq r
  unfold cquote_find
  rw [h1]
  cases res with
  | none => rfl
  | some i =>
    obtain ⟨j, _, _, hj, _⟩ := h2
    exact absurd hj (h j)

/-- The value of the last parameter may be a quoted string without end. -/
inductive Open : Str → Prop
  | mk {sp q : Str} : (∀ x ∈ sp, x = ' ') → q.Ok → NoEnd q → Open (sp ++ '"' :: q)

theorem open_ok {v : Str} (h : Open v) : v.Ok ∧ v ≠ [] := by
  obtain ⟨h1, h2, _⟩ := h
  refine ⟨ok_append ?_ (ok_cons.2 ⟨by decide, h2⟩), by simp⟩
  intro hm
  exact absurd (h1 _ hm) (by decide)

theorem paramSeps_open {name v : Str} (h2 : name.Ok) (h3 : ';' ∉ name) (h4 : '=' ∉ name) (hv : Open v) (r : List Char) :
    paramSeps (';' :: (name ++ '=' :: (v ++ NUL :: r))) = some (some ('=' :: (v ++ NUL :: r)), none) := by
  have hvo := (open_ok hv).1
  have hsep := next_separator_found h2 h4 h3 (by decide) (by decide) (by decide) hvo r
  simp only [List.append_assoc, List.cons_append] at hsep
  obtain ⟨h5, h6, h7⟩ := hv
  rename_i sp q
  unfold paramSeps
  simp only [List.append_assoc, List.cons_append] at hsep ⊢
  simp only [List.drop_succ_cons, List.drop_zero, hsep, Option.bind_eq_bind, Option.bind_some]
  have hsk := skipChars_run (cs := [' ']) sp (fun x hx => by simp [h5 x hx]) (c := '"') (by decide) (q ++ NUL :: r)
  have hqf := noEnd_find h6 h7 r
  have hspn : ';' ∉ sp := fun hm => absurd (h5 _ hm) (by decide)
  have hall : Str.Ok (name ++ '=' :: (sp ++ '"' :: q)) := ok_append h2 (ok_cons.2 ⟨by decide, hvo⟩)
  rcases cstrchr_cases (c := ';') hall (by decide) r with ⟨hno, hc⟩ | ⟨a', b', e, hna, hc⟩
  · simp only [List.append_assoc, List.cons_append] at hc
    simp only [hc, hsk, Option.bind_some, deref, List.head?_cons, if_true]
    rfl
  · have e' := congrArg List.length e
    simp only [List.append_assoc, List.cons_append] at hc
    simp only [hc, hsk, Option.bind_some, deref, List.head?_cons, if_true]
    have hpos : name.length + 1 + sp.length < a'.length := by
      rcases Nat.lt_or_ge (name.length + 1 + sp.length) a'.length with h | h
      · exact h
      · exfalso
        have h3' := congrArg (·[a'.length]?) e
        simp only [List.getElem?_append_right (Nat.le_refl _), Nat.sub_self, List.getElem?_cons_zero] at h3'
        have e4 : name ++ '=' :: (sp ++ '"' :: q) = (name ++ '=' :: (sp ++ ['"'])) ++ q := by simp
        rw [e4, List.getElem?_append_left (by simp; omega)] at h3'
        have := List.mem_of_getElem? h3'
        simp [h3, hspn] at this
    rw [if_pos]
    · simp only [List.drop_succ_cons, List.drop_zero, hqf, Option.bind_some]
      rfl
    · simp only [pdiff, List.length_cons, List.length_append] at e' ⊢
      omega

/-- A value which is not a quoted string: the parameter ends at the first semicolon. -/
theorem paramSeps_plain {name v rest : Str} (h2 : name.Ok) (h3 : ';' ∉ name) (h4 : '=' ∉ name) (hv : v.Ok) (hs : ';' ∉ v)
    (hq : (v.dropWhile (· = ' ')).head? ≠ some '"') (hr : rest.Ok) (hf : Follows rest) (r : List Char) :
    paramSeps (';' :: (name ++ '=' :: (v ++ (rest ++ NUL :: r)))) =
      some (some ('=' :: (v ++ (rest ++ NUL :: r))), if rest = [] then none else some (rest ++ NUL :: r)) := by
  have hsep := next_separator_found h2 h4 h3 (by decide) (by decide) (by decide) (ok_append hv hr) r
  simp only [List.append_assoc, List.cons_append] at hsep
  unfold paramSeps
  simp only [List.drop_succ_cons, List.drop_zero, hsep, Option.bind_eq_bind, Option.bind_some]
  have hc := cstrchr_follows (a := name ++ '=' :: v) (rest := rest)
    (ok_append h2 (ok_cons.2 ⟨by decide, hv⟩)) (by simp [h3, hs]) hr hf r
  simp only [List.append_assoc, List.cons_append] at hc ⊢
  simp only [hc, Option.bind_some]
  have hsk : ∃ d u, skipChars [' '] (v ++ (rest ++ NUL :: r)) = some (d :: u) ∧ d ≠ '"' := by
    clear hc hsep hs
    induction v with
    | nil =>
      rcases hf with rfl | ⟨t, rfl⟩
      · exact ⟨NUL, r, skipChars_run [] (by simp) (by decide) r, by decide⟩
      · exact ⟨';', t ++ NUL :: r, by simp [skipChars], by decide⟩
    | cons x v ih =>
      by_cases hx : x = ' '
      · subst hx
        rw [List.dropWhile_cons_of_pos (by simp)] at hq
        obtain ⟨d, u, e, hd⟩ := ih (ok_cons.1 hv).2 hq
        exact ⟨d, u, by simp [skipChars, e], hd⟩
      · rw [List.dropWhile_cons_of_neg (by simp [hx])] at hq
        exact ⟨x, v ++ (rest ++ NUL :: r), by simp [skipChars, hx], fun h => hq (by simp [h])⟩
  obtain ⟨d, u, e, hd⟩ := hsk
  simp [e, deref, hd]

theorem step_none {name rest : Str} (h2 : name.Ok) (h3 : ';' ∉ name) (h4 : '=' ∉ name) (hr : rest.Ok) (hf : Follows rest)
    (n : Nat) (acc : List Param) (r : List Char) :
    parseallLoop (n + 1) acc (';' :: (name ++ (rest ++ NUL :: r))) =
      if name = [] then some (if rest = [] then OSIP_SUCCESS else OSIP_SYNTAXERROR, acc)
      else if rest = [] then some (OSIP_SUCCESS, acc ++ [⟨trim name, none⟩])
      else parseallLoop n (acc ++ [⟨trim name, none⟩]) (rest ++ NUL :: r) := by
  have hseps := paramSeps_none h2 h3 h4 hr hf r
  have e : pdiff (rest ++ NUL :: r) (';' :: (name ++ (rest ++ NUL :: r))) = name.length + 1 := by
    have := pdiff_app (';' :: name) (rest ++ NUL :: r)
    simpa using this
  have hcopy := strncpy_at h2 hr r (n := (name.length : Int) + 1 - 1) (by omega)
  conv => lhs; unfold parseallLoop
  rw [hseps]
  by_cases hp : rest = []
  · subst hp
    simp only [List.nil_append] at e hcopy
    have hcs : cstr (';' :: (name ++ NUL :: r)) = some (';' :: name) :=
      cstr_at (s := ';' :: name) (ok_cons.2 ⟨by decide, h2⟩) r
    simp only [if_true, List.nil_append, Option.bind_eq_bind, Option.bind_some, hcs]
    have hd : (';' :: (name ++ NUL :: r)).drop (';' :: name).length = NUL :: r := by simp
    rw [hd, e]
    by_cases hn : name = []
    · subst hn; rfl
    · have hlen : 0 < name.length := List.length_pos_iff.2 hn
      rw [if_neg (by omega), if_neg hn]
      simp only [List.drop_succ_cons, List.drop_zero, hcopy, Option.bind_some]
      rfl
  · simp only [if_neg hp, Option.bind_eq_bind, Option.bind_some, Option.getD_none]
    rw [e]
    by_cases hn : name = []
    · subst hn; rfl
    · have hlen : 0 < name.length := List.length_pos_iff.2 hn
      rw [if_neg (by omega), if_neg hn]
      simp only [List.drop_succ_cons, List.drop_zero, hcopy, Option.bind_some]
      rfl

/-- What the loop does with a value. -/
def afterValue (n : Nat) (acc : List Param) (name : Str) (next : List Char) (atEnd : Prop) [Decidable atEnd] :
    Except Int (Option Str) → Option (Int × List Param)
  | .error i => some (i, acc)
  | .ok val =>
    if name = [] then some (OSIP_SYNTAXERROR, acc)
    else if atEnd then some (OSIP_SUCCESS, acc ++ [⟨trim name, val.map trim⟩])
    else parseallLoop n (acc ++ [⟨trim name, val.map trim⟩]) next

theorem step_some {name v rest : Str} (h2 : name.Ok) (hvo : v.Ok) (hr : rest.Ok) (n : Nat) (acc : List Param) (r : List Char)
    (hseps : paramSeps (';' :: (name ++ '=' :: (v ++ (rest ++ NUL :: r)))) =
      some (some ('=' :: (v ++ (rest ++ NUL :: r))), if rest = [] then none else some (rest ++ NUL :: r)))
    {pv : Except Int (Option Str)} (hpv : paramValue ('=' :: (v ++ (rest ++ NUL :: r))) (rest ++ NUL :: r) = some pv) :
    parseallLoop (n + 1) acc (';' :: (name ++ '=' :: (v ++ (rest ++ NUL :: r)))) =
      afterValue n acc name (rest ++ NUL :: r) (rest = []) pv := by
  have e : pdiff ('=' :: (v ++ (rest ++ NUL :: r))) (';' :: (name ++ '=' :: (v ++ (rest ++ NUL :: r)))) = name.length + 1 := by
    have := pdiff_app (';' :: name) ('=' :: (v ++ (rest ++ NUL :: r)))
    simpa using this
  have hcopy := strncpy_at h2 (b := '=' :: (v ++ rest)) (ok_cons.2 ⟨by decide, ok_append hvo hr⟩) r
    (n := (name.length : Int) + 1 - 1) (by omega)
  simp only [List.cons_append, List.append_assoc] at hcopy
  conv => lhs; unfold parseallLoop
  rw [hseps]
  by_cases hp : rest = []
  · subst hp
    simp only [List.nil_append] at e hcopy hpv
    have hcs := cstr_at (s := ';' :: (name ++ '=' :: v))
      (ok_cons.2 ⟨by decide, ok_append h2 (ok_cons.2 ⟨by decide, hvo⟩)⟩) r
    simp only [List.cons_append, List.append_assoc] at hcs
    simp only [if_true, List.nil_append, Option.bind_eq_bind, Option.bind_some, hcs]
    have hd : (';' :: (name ++ '=' :: (v ++ NUL :: r))).drop (';' :: (name ++ '=' :: v)).length = NUL :: r := by
      have := drop_len (s := ';' :: (name ++ '=' :: v)) (NUL :: r)
      simpa using this
    rw [hd, hpv]
    simp only [Option.bind_some]
    cases pv with
    | error i => rfl
    | ok val =>
      simp only [e, afterValue]
      by_cases hn : name = []
      · subst hn; rfl
      · have hlen : 0 < name.length := List.length_pos_iff.2 hn
        rw [if_neg (by omega), if_neg hn]
        simp only [List.drop_succ_cons, List.drop_zero, hcopy, Option.bind_some]
        rfl
  · simp only [if_neg hp, Option.bind_eq_bind, Option.bind_some, Option.getD_some, hpv]
    cases pv with
    | error i => rfl
    | ok val =>
      simp only [e, afterValue]
      by_cases hn : name = []
      · subst hn; rfl
      · have hlen : 0 < name.length := List.length_pos_iff.2 hn
        rw [if_neg (by omega), if_neg hn]
        simp only [List.drop_succ_cons, List.drop_zero, hcopy, Option.bind_some, if_neg hp]
        rfl

/-- The value of a parameter whose value starts with `c` after blanks. -/
theorem value_some {sp w rest : Str} {c : Char} (hsp : ∀ x ∈ sp, x = ' ') (hc : c ∉ [' ', '\t', ',']) (hw : Str.Ok (c :: w)) (hr : rest.Ok)
    (r : List Char) : paramValue ('=' :: (sp ++ c :: w ++ (rest ++ NUL :: r))) (rest ++ NUL :: r) = some (.ok (some (sp ++ c :: w))) := by
  have hso : sp.Ok := fun hm => absurd (hsp _ hm) (by decide)
  have e : pdiff (rest ++ NUL :: r) ('=' :: (sp ++ c :: w ++ (rest ++ NUL :: r))) = (sp ++ c :: w).length + 1 := by
    have := pdiff_app ('=' :: (sp ++ c :: w)) (rest ++ NUL :: r)
    simpa using this
  simp only [List.mem_cons, List.not_mem_nil, or_false, not_or] at hc
  have h1 := skipChars_run (cs := ['\t', ' ']) sp (fun x hx => by simp [hsp x hx]) (c := c) (by simp [hc]) (w ++ (rest ++ NUL :: r))
  have h2 := strncpy_at (ok_append hso hw) hr r (n := ((sp ++ c :: w).length : Int) + 1 - 1) (by omega)
  unfold paramValue
  simp only [List.drop_succ_cons, List.drop_zero, e]
  rw [show sp ++ c :: w ++ (rest ++ NUL :: r) = sp ++ c :: (w ++ (rest ++ NUL :: r)) by simp] at h2 ⊢
  simp only [h1, Option.bind_eq_bind, Option.bind_some, deref, List.head?_cons]
  rw [if_pos ⟨hc.2.2, (ok_cons.1 hw).1⟩, if_neg (by simp; omega), h2]
  rfl

theorem value_comma {sp w : Str} (hsp : ∀ x ∈ sp, x = ' ') (t q : List Char) :
    paramValue ('=' :: (sp ++ ',' :: w ++ t)) q = some (.ok none) := by
  have h1 := skipChars_run (cs := ['\t', ' ']) sp (fun x hx => by simp [hsp x hx]) (c := ',') (by decide) (w ++ t)
  unfold paramValue
  simp only [List.drop_succ_cons, List.drop_zero, List.append_assoc, List.cons_append, h1, Option.bind_eq_bind, Option.bind_some, deref,
    List.head?_cons]
  rfl

/-- A blank value. -/
theorem value_blank {sp rest : Str} (hsp : ∀ x ∈ sp, x = ' ') (hr : rest.Ok) (hf : Follows rest) (r : List Char) :
    paramValue ('=' :: (sp ++ (rest ++ NUL :: r))) (rest ++ NUL :: r) =
      some (if rest = [] then .ok none else if sp = [] then .error OSIP_SYNTAXERROR else .ok (some sp)) := by
  have hso : sp.Ok := fun hm => absurd (hsp _ hm) (by decide)
  rcases hf with rfl | ⟨t, rfl⟩
  · have h1 := skipChars_run (cs := ['\t', ' ']) sp (fun x hx => by simp [hsp x hx]) (c := NUL) (by decide) r
    unfold paramValue
    simp only [List.drop_succ_cons, List.drop_zero, List.nil_append, h1, Option.bind_eq_bind, Option.bind_some, deref,
      List.head?_cons]
    rfl
  · have h1 := skipChars_run (cs := ['\t', ' ']) sp (fun x hx => by simp [hsp x hx]) (c := ';') (by decide) (t ++ NUL :: r)
    have e : pdiff (';' :: t ++ NUL :: r) ('=' :: (sp ++ (';' :: t ++ NUL :: r))) = sp.length + 1 := by
      have := pdiff_app ('=' :: sp) (';' :: t ++ NUL :: r)
      simpa using this
    have h2 := strncpy_at hso hr r (n := (sp.length : Int) + 1 - 1) (by omega)
    unfold paramValue
    simp only [List.drop_succ_cons, List.drop_zero, e]
    simp only [List.cons_append] at h2 ⊢
    simp only [h1, h2, Option.bind_eq_bind, Option.bind_some, deref, List.head?_cons]
    rw [if_pos (by decide), if_neg (by simp : ¬ (';' :: t) = [])]
    cases sp with
    | nil => rfl
    | cons x sp =>
      rw [if_neg (by simp only [List.length_cons]; omega), if_neg (by simp)]
      rfl

/-- Lists of parameters which are read back. -/
inductive Stable : List Param → Prop
  | nil : Stable []
  | cons {p : Param} {ps : List Param} : WfParam p → Stable ps → Stable (p :: ps)
  | last {n v : Str} : n ≠ [] → n.Ok → ';' ∉ n → '=' ∉ n → Trimmed n → Open v → Trimmed v → Stable [⟨n, some v⟩]

theorem wf_value_trim {v : Str} (h : WfValue v) (hl : NoTab v) : WfValue (trim v) := by
  cases h with
  | @plain sp t c h5 h6 h7 h8 =>
    have hsp : ∀ x ∈ sp, isBlank x = true := fun x hx => by rcases h5 x hx with rfl | rfl <;> rfl
    rw [trim_front hsp]
    simp only [List.mem_cons, not_or, List.not_mem_nil, not_false_eq_true, and_true] at h6
    have hl' := (noTab_append.1 hl).2
    have hb : isBlank c = false := by
      cases hb : isBlank c with
      | false => rfl
      | true => exact absurd (blank_space hl' (by simp) hb) h6.1
    obtain ⟨t', w, e, e2, _⟩ := trim_end (s := c :: t) rfl hb
    rw [e]
    subst e2
    have := WfValue.plain (sp := []) (t := t') (c := c) (by simp) (by simp [h6]) (fun hm => h7 (by
      rcases List.mem_cons.1 hm with h | h
      · exact List.mem_cons.2 (.inl h)
      · simp [h])) (ok_cons.2 ⟨(ok_cons.1 h8).1, (ok_append_iff.1 (ok_cons.1 h8).2).1⟩)
    simpa using this
  | @quoted sp body tail h5 h6 h7 h8 h9 =>
    have hsp : ∀ x ∈ sp, isBlank x = true := fun x hx => by rw [h5 x hx]; rfl
    rw [trim_front hsp]
    obtain ⟨t', w, e, e2, hw⟩ := trim_end (s := '"' :: (body ++ '"' :: tail)) rfl (by rfl)
    rw [e]
    have hq : '"' ∉ w := fun hm => absurd (hw _ hm) (by decide)
    obtain ⟨tail', rfl, rfl⟩ : ∃ tail', t' = body ++ '"' :: tail' ∧ tail = tail' ++ w := by
      rcases List.append_eq_append_iff.1 e2 with ⟨a', h1, h2⟩ | ⟨c', h1, h2⟩
      · cases a' with
        | nil => exact absurd (by rw [← List.nil_append w, ← h2]; simp) hq
        | cons x a' =>
          simp only [List.cons_append, List.cons.injEq] at h2
          exact ⟨a', by rw [h1, ← h2.1], h2.2⟩
      · exact absurd (by rw [h2]; simp) hq
    have := WfValue.quoted (sp := []) (body := body) (tail := tail') (by simp) h6 h7 (ok_append_iff.1 h8).1 (fun hm => h9 (by simp [hm]))
    simpa using this

theorem open_trim {v : Str} (h : Open v) : Open (trim v) := by
  obtain ⟨h1, h2, h3⟩ := h
  rename_i sp q
  have hsp : ∀ x ∈ sp, isBlank x = true := fun x hx => by rw [h1 x hx]; rfl
  rw [trim_front hsp]
  obtain ⟨t', w, e, e2, hw⟩ := trim_end (s := '"' :: q) rfl (by rfl)
  rw [e]
  subst e2
  have := Open.mk (sp := []) (q := t') (by simp) (ok_append_iff.1 h2).1 (noEnd_prefix h3)
  simpa using this

theorem ok_trim {s : Str} (h : s.Ok) : (trim s).Ok := trim_mem h

/-- Everything which is read is read back, unless there is an empty name or value. -/
theorem read_stable : ∀ (n : Nat) (acc : List Param) (t : Str) (r : List Char) (out : List Param), t.Ok → NoTab t →
    parseallLoop n acc (';' :: (t ++ NUL :: r)) = some (OSIP_SUCCESS, out) →
    ∃ ps, out = acc ++ ps ∧ (NoneEmpty ps → Stable ps) := by
  intro n
  induction n with
  | zero => intro acc t r out _ _ h; simp [parseallLoop] at h
  | succ n ih =>
    intro acc t r out ht hl h
    -- the end of the round
    have fin : ∀ (p : Param) (rest : Str), rest.Ok → NoTab rest → Follows rest →
        (p.gname ≠ [] ∧ p.gvalue ≠ some [] → WfParam p) →
        (if rest = [] then some (OSIP_SUCCESS, acc ++ [p]) else parseallLoop n (acc ++ [p]) (rest ++ NUL :: r)) = some (OSIP_SUCCESS, out) →
        ∃ ps, out = acc ++ ps ∧ (NoneEmpty ps → Stable ps) := by
      intro p rest hr hlr hf hp hh
      by_cases h0 : rest = []
      · rw [if_pos h0] at hh
        simp only [Option.some.injEq, Prod.mk.injEq, true_and] at hh
        exact ⟨[p], hh.symm, fun hg => .cons (hp (hg p (by simp))) .nil⟩
      · rw [if_neg h0] at hh
        rcases hf with h1 | ⟨u, rfl⟩
        · exact absurd h1 h0
        · obtain ⟨ps, e, hs⟩ := ih _ u r out (ok_cons.1 hr).2 (noTab_cons hlr) hh
          refine ⟨p :: ps, by rw [e]; simp, fun hg => .cons (hp (hg p (by simp))) (hs fun q hq => hg q (by simp [hq]))⟩
    -- name and what follows
    obtain ⟨name, x, rfl, hn1, hn2, hx⟩ : ∃ name x, t = name ++ x ∧ ';' ∉ name ∧ '=' ∉ name ∧ (Follows x ∨ ∃ u, x = '=' :: u) := by
      clear h fin
      induction t with
      | nil => exact ⟨[], [], rfl, by simp, by simp, .inl (.inl rfl)⟩
      | cons c t iht =>
        by_cases h1 : c = ';'
        · subst h1; exact ⟨[], ';' :: t, rfl, by simp, by simp, .inl (.inr ⟨t, rfl⟩)⟩
        · by_cases h2 : c = '='
          · subst h2; exact ⟨[], '=' :: t, rfl, by simp, by simp, .inr ⟨t, rfl⟩⟩
          · obtain ⟨name, x, e, a1, a2, a3⟩ := iht (ok_cons.1 ht).2 (noTab_cons hl)
            exact ⟨c :: name, x, by rw [e]; rfl, by simp [a1, Ne.symm h1], by simp [a2, Ne.symm h2], a3⟩
    obtain ⟨hno, hxo⟩ := ok_append_iff.1 ht
    obtain ⟨hnl, hxl⟩ := noTab_append.1 hl
    rcases hx with hf | ⟨u, rfl⟩
    · rw [List.append_assoc, step_none hno hn1 hn2 hxo hf] at h
      by_cases hn : name = []
      · rw [if_pos hn] at h
        simp only [Option.some.injEq, Prod.mk.injEq] at h
        exact ⟨[], by simp [h.2], fun _ => .nil⟩
      · rw [if_neg hn] at h
        refine fin _ x hxo hxl hf ?_ h
        rintro ⟨g1, _⟩
        exact ⟨⟨g1, ok_trim hno, trim_mem hn1, trim_mem hn2, by simp⟩, trim_trim _, by simp⟩
    · have huo := (ok_cons.1 hxo).2
      have hul := noTab_cons hxl
      -- blanks before the value
      obtain ⟨sp, y, rfl, hsp, hy⟩ : ∃ sp y : Str, u = sp ++ y ∧ (∀ x ∈ sp, x = ' ') ∧ y.head? ≠ some ' ' := by
        clear h fin huo hul hxo ht hl hxl
        induction u with
        | nil => exact ⟨[], [], rfl, by simp, by simp⟩
        | cons c u ihu =>
          by_cases h1 : c = ' '
          · subst h1
            obtain ⟨sp, y, e, a1, a2⟩ := ihu
            exact ⟨' ' :: sp, y, by rw [e]; rfl, by simpa using a1, a2⟩
          · exact ⟨[], c :: u, rfl, by simp, by simp [h1]⟩
      obtain ⟨hso, hyo⟩ := ok_append_iff.1 huo
      obtain ⟨hsl, hyl⟩ := noTab_append.1 hul
      have hss : ';' ∉ sp := fun hm => absurd (hsp _ hm) (by decide)
      have hdrop : ∀ z : Str, z.head? ≠ some ' ' → (sp ++ z).dropWhile (· = ' ') = z := by
        intro z hz
        clear h fin hul huo ht hl hxo hxl hso hsl hss
        induction sp with
        | nil =>
          cases z with
          | nil => rfl
          | cons c z => simp at hz; simp [hz]
        | cons c sp ihs =>
          rw [hsp c (by simp)]
          simpa using ihs fun x hx => hsp x (by simp [hx])
      have wf : ∀ v : Str, WfValue v → NoTab v → trim name ≠ [] → WfParam ⟨trim name, some (trim v)⟩ := by
        intro v hv hvl g
        refine ⟨⟨g, ok_trim hno, trim_mem hn1, trim_mem hn2, ?_⟩, trim_trim _, ?_⟩
        · intro x hx; cases hx; exact wf_value_trim hv hvl
        · intro x hx; cases hx; exact trim_trim _
      by_cases hq : y.head? = some '"'
      · -- a quoted string
        obtain ⟨q, rfl⟩ : ∃ q, y = '"' :: q := by
          cases y with
          | nil => simp at hq
          | cons c q => simp at hq; exact ⟨q, by rw [hq]⟩
        have hqo := (ok_cons.1 hyo).2
        rcases quoted_or_open hqo with hne | ⟨body, tl, rfl, hb⟩
        · have hop : Open (sp ++ '"' :: q) := .mk hsp hqo hne
          have hseps := paramSeps_open hno hn1 hn2 hop r
          have hpv := value_some (rest := []) hsp (c := '"') (by decide) hyo (by simp [Str.Ok]) r
          have := step_some hno (open_ok hop).1 (rest := []) (by simp [Str.Ok]) n acc r (by simpa using hseps) hpv
          simp only [List.nil_append, afterValue, if_true] at this
          simp only [List.append_assoc, List.cons_append] at h this
          rw [this] at h
          by_cases hn : name = []
          · rw [if_pos hn] at h
            simp [OSIP_SYNTAXERROR, OSIP_SUCCESS] at h
          · rw [if_neg hn] at h
            simp only [Option.some.injEq, Prod.mk.injEq, true_and] at h
            refine ⟨_, h.symm, fun hg => ?_⟩
            have := (hg _ (List.mem_singleton.2 rfl)).1
            exact .last this (ok_trim hno) (trim_mem hn1) (trim_mem hn2) (trim_trim _) (by simpa using open_trim hop) (trim_trim _)
        · obtain ⟨hbo, hto⟩ := ok_append_iff.1 hqo
          have hto := (ok_cons.1 hto).2
          obtain ⟨tail, rest, rfl, htl, hf⟩ : ∃ tail rest : Str, tl = tail ++ rest ∧ ';' ∉ tail ∧ Follows rest := by
            by_cases hm : ';' ∈ tl
            · obtain ⟨a, b, e, ha⟩ := mem_first hm
              exact ⟨a, ';' :: b, e, ha, .inr ⟨b, rfl⟩⟩
            · exact ⟨tl, [], by simp, hm, .inl rfl⟩
          obtain ⟨htao, hro⟩ := ok_append_iff.1 hto
          have hwv : WfValue (sp ++ '"' :: (body ++ '"' :: tail)) := .quoted hsp hb hbo htao htl
          have e0 : sp ++ '"' :: (body ++ '"' :: (tail ++ rest)) = (sp ++ '"' :: (body ++ '"' :: tail)) ++ rest := by simp
          rw [e0] at hul
          obtain ⟨hvl, hrl⟩ := noTab_append.1 hul
          have hseps := paramSeps_some hno hn1 hn2 hwv hro hf r
          have := step_some hno (wfValue_ok hwv).1 hro n acc r hseps (paramValue_wf hwv hro r)
          rw [e0] at h
          simp only [List.append_assoc, List.cons_append] at h this
          rw [this] at h
          simp only [afterValue] at h
          by_cases hn : name = []
          · rw [if_pos hn] at h
            simp [OSIP_SYNTAXERROR, OSIP_SUCCESS] at h
          · rw [if_neg hn] at h
            refine fin _ rest hro hrl hf ?_ h
            rintro ⟨g1, _⟩
            have := wf _ hwv hvl g1
            simpa using this
      · -- another value
        obtain ⟨w, rest, rfl, hws, hf⟩ : ∃ w rest : Str, y = w ++ rest ∧ ';' ∉ w ∧ Follows rest := by
          by_cases hm : ';' ∈ y
          · obtain ⟨a, b, e, ha⟩ := mem_first hm
            exact ⟨a, ';' :: b, e, ha, .inr ⟨b, rfl⟩⟩
          · exact ⟨y, [], by simp, hm, .inl rfl⟩
        obtain ⟨hwo, hro⟩ := ok_append_iff.1 hyo
        obtain ⟨hwl, hrl⟩ := noTab_append.1 hyl
        have hwh : ∀ d, (w ++ rest).head? ≠ some d → w.head? ≠ some d := by
          intro d hd
          cases w with
          | nil => simp
          | cons c w => simpa using hd
        have hvo : Str.Ok (sp ++ w) := ok_append hso hwo
        have hseps := paramSeps_plain (v := sp ++ w) hno hn1 hn2 hvo (by simp [hss, hws]) (by rw [hdrop w (hwh _ hy)]; exact hwh _ hq) hro hf r
        have go : ∀ pv, paramValue ('=' :: (sp ++ w ++ (rest ++ NUL :: r))) (rest ++ NUL :: r) = some pv →
            (∀ val, pv = .ok val → trim name ≠ [] ∧ val.map trim ≠ some [] → WfParam ⟨trim name, val.map trim⟩) →
            (∀ i, pv = .error i → i ≠ OSIP_SUCCESS) → ∃ ps, out = acc ++ ps ∧ (NoneEmpty ps → Stable ps) := by
          intro pv hpv hgood herr
          have := step_some hno hvo hro n acc r hseps hpv
          simp only [List.append_assoc, List.cons_append] at h this
          rw [this] at h
          cases pv with
          | error i =>
            simp only [afterValue, Option.some.injEq, Prod.mk.injEq] at h
            exact absurd h.1 (herr i rfl)
          | ok val =>
            simp only [afterValue] at h
            by_cases hn : name = []
            · rw [if_pos hn] at h
              simp [OSIP_SYNTAXERROR, OSIP_SUCCESS] at h
            · rw [if_neg hn] at h
              exact fin _ rest hro hrl hf (hgood val rfl) h
        cases w with
        | nil =>
          refine go _ (by simpa using value_blank hsp hro hf r) ?_ ?_
          · intro val hval
            rintro ⟨g1, g2⟩
            by_cases h0 : rest = []
            · rw [if_pos h0] at hval
              cases hval
              exact ⟨⟨g1, ok_trim hno, trim_mem hn1, trim_mem hn2, by simp⟩, trim_trim _, by simp⟩
            · rw [if_neg h0] at hval
              by_cases h1 : sp = []
              · rw [if_pos h1] at hval; cases hval
              · rw [if_neg h1] at hval
                cases hval
                exfalso
                refine g2 ?_
                have := trim_front (w := sp) (s := []) fun x hx => by rw [hsp x hx]; rfl
                simp only [List.append_nil] at this
                rw [Option.map_some, this]
                rfl
          · intro i hi
            by_cases h0 : rest = []
            · rw [if_pos h0] at hi; cases hi
            · rw [if_neg h0] at hi
              by_cases h1 : sp = []
              · rw [if_pos h1] at hi; cases hi; decide
              · rw [if_neg h1] at hi; cases hi
        | cons c w =>
          have c1 : c ≠ ' ' := by simpa using hy
          have c2 : c ≠ '"' := by simpa using hq
          have c3 : c ≠ '\t' := fun hc => hwl.1 (by simp [hc])
          by_cases hc : c = ','
          · subst hc
            refine go _ (value_comma hsp _ _) ?_ ?_
            · intro val hval
              cases hval
              rintro ⟨g1, _⟩
              exact ⟨⟨g1, ok_trim hno, trim_mem hn1, trim_mem hn2, by simp⟩, trim_trim _, by simp⟩
            · intro i hi; cases hi
          · refine go _ (value_some hsp (by simp [c1, c3, hc]) hwo hro r) ?_ ?_
            · intro val hval
              cases hval
              rintro ⟨g1, _⟩
              exact wf _ (.plain (fun x hx => .inl (hsp x hx)) (by simp [c1, c2, c3, hc]) hws hwo) (noTab_append.2 ⟨hsl, hwl⟩) g1
            · intro i hi; cases hi

/-! ## Writing -/

/-- The parameter with blanks before its name. -/
def padded (k : Nat) (p : Param) : Param := ⟨List.replicate k ' ' ++ p.gname, p.gvalue⟩

theorem padded_zero (ps : List Param) : ps.map (padded 0) = ps := by
  conv => rhs; rw [← List.map_id ps]
  exact List.map_congr_left fun p _ => by simp [padded]

theorem trim_replicate (k : Nat) (s : Str) : trim (List.replicate k ' ' ++ s) = trim s :=
  trim_front fun c hc => by rw [(List.mem_replicate.1 hc).2]; rfl

theorem replicate_ok {k : Nat} {s : Str} (h : s.Ok) : Str.Ok (List.replicate k ' ' ++ s) :=
  ok_append (fun hm => absurd (List.mem_replicate.1 hm).2 (by decide)) h

theorem replicate_not_mem {k : Nat} {s : Str} {c : Char} (hc : c ≠ ' ') (h : c ∉ s) : c ∉ List.replicate k ' ' ++ s := by
  intro hm
  rcases List.mem_append.1 hm with hm | hm
  · exact hc (List.mem_replicate.1 hm).2
  · exact h hm

theorem stable_ok {ps : List Param} (h : Stable ps) (k : Nat) : Str.Ok ((ps.map (padded k)).flatMap paramToStr) := by
  induction h with
  | nil => simp [Str.Ok]
  | @cons p ps hp _ ih =>
    rw [List.map_cons, List.flatMap_cons]
    refine ok_append ?_ ih
    obtain ⟨⟨_, h2, _, _, h5⟩, _⟩ := hp
    obtain ⟨n, v⟩ := p
    cases v with
    | none => exact ok_cons.2 ⟨by decide, replicate_ok h2⟩
    | some v => exact ok_cons.2 ⟨by decide, ok_append (replicate_ok h2) (ok_cons.2 ⟨by decide, (wfValue_ok (h5 v rfl)).1⟩)⟩
  | last h1 h2 _ _ _ h6 _ =>
    simp only [List.map_cons, List.map_nil, List.flatMap_cons, List.flatMap_nil, List.append_nil]
    exact ok_cons.2 ⟨by decide, ok_append (replicate_ok h2) (ok_cons.2 ⟨by decide, (open_ok h6).1⟩)⟩

theorem stable_loop {ps : List Param} (h : Stable ps) (k : Nat) : ps ≠ [] → ∀ (acc : List Param) (n : Nat), ps.length ≤ n → ∀ r : List Char,
    parseallLoop n acc ((ps.map (padded k)).flatMap paramToStr ++ NUL :: r) = some (OSIP_SUCCESS, acc ++ ps) := by
  induction h with
  | nil => exact fun h => absurd rfl h
  | @cons p ps hp hs ih =>
    intro _ acc n hn r
    obtain ⟨n, rfl⟩ : ∃ m, n = m + 1 := ⟨n - 1, by simp at hn; omega⟩
    have hro := stable_ok hs k
    have hfol := params_follow (ps.map (padded k))
    have hnil : (ps.map (padded k)).flatMap paramToStr = [] ↔ ps = [] := by rw [params_nil_iff]; simp
    rw [List.map_cons, List.flatMap_cons]
    have hrec := fun h0 acc => ih h0 acc n (by simp at hn; omega) r
    generalize (ps.map (padded k)).flatMap paramToStr = rest at *
    obtain ⟨⟨h1, h2, h3, h4, h5⟩, h6, h7⟩ := hp
    obtain ⟨name, val⟩ := p
    simp only at h1 h2 h3 h4 h5 h6 h7
    have g1 : List.replicate k ' ' ++ name ≠ [] := by simp [h1]
    have g2 := replicate_ok (k := k) h2
    have g3 := replicate_not_mem (k := k) (c := ';') (by decide) h3
    have g4 := replicate_not_mem (k := k) (c := '=') (by decide) h4
    have g5 : trim (List.replicate k ' ' ++ name) = name := (trim_replicate k name).trans h6
    cases val with
    | none =>
      have := step_none g2 g3 g4 hro hfol n acc r
      simp only [paramToStr, padded, List.cons_append, List.append_assoc] at this ⊢
      rw [this, if_neg (by simpa using g1), g5]
      by_cases h0 : ps = []
      · rw [if_pos (hnil.2 h0), h0]
      · rw [if_neg (fun hx => h0 (hnil.1 hx)), hrec h0]; simp
    | some v =>
      have hv := h5 v rfl
      have := step_some g2 (wfValue_ok hv).1 hro n acc r (paramSeps_some g2 g3 g4 hv hro hfol r) (paramValue_wf hv hro r)
      simp only [afterValue] at this
      simp only [paramToStr, padded, List.cons_append, List.append_assoc] at this ⊢
      rw [this, if_neg (by simpa using g1), g5, Option.map_some, show trim v = v from h7 v rfl]
      by_cases h0 : ps = []
      · rw [if_pos (hnil.2 h0), h0]
      · rw [if_neg (fun hx => h0 (hnil.1 hx)), hrec h0]; simp
  | @last name v h1 h2 h3 h4 h5 h6 h7 =>
    intro _ acc n hn r
    obtain ⟨n, rfl⟩ : ∃ m, n = m + 1 := ⟨n - 1, by simp at hn; omega⟩
    have g1 : List.replicate k ' ' ++ name ≠ [] := by simp [h1]
    have g2 := replicate_ok (k := k) h2
    have g3 := replicate_not_mem (k := k) (c := ';') (by decide) h3
    have g4 := replicate_not_mem (k := k) (c := '=') (by decide) h4
    have g5 : trim (List.replicate k ' ' ++ name) = name := (trim_replicate k name).trans h5
    have hseps := paramSeps_open g2 g3 g4 h6 r
    have hvo := (open_ok h6).1
    have hpv : paramValue ('=' :: (v ++ ([] ++ NUL :: r))) ([] ++ NUL :: r) = some (.ok (some v)) := by
      obtain ⟨q1, q2, _⟩ := h6
      exact value_some q1 (by decide) (ok_cons.2 ⟨by decide, q2⟩) (by simp [Str.Ok]) r
    have := step_some g2 hvo (rest := []) (by simp [Str.Ok]) n acc r (by simpa using hseps) hpv
    simp only [afterValue, if_true, List.nil_append] at this
    simp only [List.map_cons, List.map_nil, List.flatMap_cons, List.flatMap_nil, List.append_nil, paramToStr, padded, List.cons_append,
      List.append_assoc] at this ⊢
    rw [this, if_neg (by simpa using g1), g5, Option.map_some, show trim v = v from h7]

theorem stable_read {ps : List Param} (h : Stable ps) (k : Nat) (r : List Char) :
    optParams [] (if (ps.map (padded k)).flatMap paramToStr = [] then none else some ((ps.map (padded k)).flatMap paramToStr ++ NUL :: r)) =
      some (OSIP_SUCCESS, ps) := by
  by_cases h0 : ps = []
  · subst h0; rfl
  · rw [if_neg (fun hx => h0 (by simpa using (params_nil_iff _).1 hx)), optParams, generic_param_parseall]
    have hl := params_length_le (ps.map (padded k))
    rw [List.length_map] at hl
    rw [stable_loop h k h0 [] _ (by simp only [List.length_append]; omega) r]
    rfl

/-- What `strchr (…, ';')` found gives parameters which are read back. -/
theorem opt_stable {g : Option Str} (hg : ∀ t ∈ g, Str.Ok t ∧ NoTab t) (r : List Char) {ps : List Param}
    (h : optParams [] (g.map fun t => ';' :: (t ++ NUL :: r)) = some (OSIP_SUCCESS, ps)) (hn : NoneEmpty ps) : Stable ps := by
  cases g with
  | none =>
    simp [optParams] at h
    subst h; exact .nil
  | some t =>
    obtain ⟨h1, h2⟩ := hg t rfl
    obtain ⟨ps', e, hs⟩ := read_stable _ _ _ _ _ h1 h2 h
    rw [List.nil_append] at e
    subst e
    exact hs hn

theorem entry_stable {e G : Str} {ps : List Param} (he : e.Ok) (h0 : e ≠ []) (ht : Trimmed e) (hG : G.Ok) (r : List Char)
    (ho : optParams [] (if G = [] then none else some (G ++ NUL :: r)) = some (OSIP_SUCCESS, ps)) :
    entryRest (e ++ (G ++ NUL :: r)) (if G = [] then none else some (G ++ NUL :: r)) =
      some (OSIP_SUCCESS, { element := some e, gen_params := ps }) := by
  have el := List.length_pos_iff.2 h0
  have key : entryElement ps (e ++ (G ++ NUL :: r)) (G ++ NUL :: r) =
      some (OSIP_SUCCESS, { element := some e, gen_params := ps }) := by
    have c1 := clrncpy_at he hG r (n := e.length) rfl
    simp only [entryElement, pdiff_app, c1, Option.bind_eq_bind, Option.bind_some]
    rw [if_neg (by omega), show trim e = e from ht]
    rfl
  unfold entryRest
  simp only [ho, Option.bind_eq_bind, Option.bind_some]
  rw [if_neg (by decide)]
  by_cases hG0 : G = []
  · subst hG0
    simp only [if_true, List.nil_append, cstr_at he, Option.bind_some, drop_len]
    exact key
  · simp only [hG0, if_false]
    exact key

theorem media_stable {t s G : Str} {ps : List Param} (t1 : t.Ok) (t2 : t ≠ []) (t3 : Trimmed t) (t4 : '/' ∉ t) (t5 : ';' ∉ t)
    (s1 : s.Ok) (s2 : s ≠ []) (s3 : Trimmed s) (s4 : ';' ∉ s) (hG : G.Ok) (hF : Follows G) (r : List Char)
    (ho : optParams [] (if G = [] then none else some (G ++ NUL :: r)) = some (OSIP_SUCCESS, ps)) :
    osip_content_type_parse (some (t ++ '/' :: (s ++ (G ++ NUL :: r)))) =
      some (OSIP_SUCCESS, { type := some t, subtype := some s, gen_params := ps }) := by
  have e2 : t ++ '/' :: (s ++ (G ++ NUL :: r)) = (t ++ '/' :: s) ++ (G ++ NUL :: r) := by simp
  have f1 := cstrchr_found (c := '/') t1 t4 (s ++ (G ++ NUL :: r))
  have f2 := cstrchr_follows (a := t ++ '/' :: s) (rest := G) (ok_append t1 (ok_cons.2 ⟨by decide, s1⟩)) (by simp [t5, s4]) hG hF r
  rw [← e2] at f2
  obtain ⟨a, t', ht⟩ : ∃ a t', t = a :: t' := by
    cases t with
    | nil => exact absurd rfl t2
    | cons a t' => exact ⟨a, t', rfl⟩
  have hd : deref (t ++ '/' :: (s ++ (G ++ NUL :: r))) = some a := by rw [ht]; rfl
  have ha : a ≠ NUL := by rw [ht] at t1; exact (ok_cons.1 t1).1
  have d1 : pdiff ('/' :: (s ++ (G ++ NUL :: r))) (t ++ '/' :: (s ++ (G ++ NUL :: r))) = t.length := pdiff_app _ _
  have d2 : pdiff (G ++ NUL :: r) ('/' :: (s ++ (G ++ NUL :: r))) = s.length + 1 := by
    have := pdiff_app ('/' :: s) (G ++ NUL :: r)
    simpa using this
  have tl : 0 < t.length := List.length_pos_iff.2 t2
  have sl : 0 < s.length := List.length_pos_iff.2 s2
  have key : contentTypeNames ps (t ++ '/' :: (s ++ (G ++ NUL :: r))) ('/' :: (s ++ (G ++ NUL :: r))) (G ++ NUL :: r) =
      some (OSIP_SUCCESS, { type := some t, subtype := some s, gen_params := ps }) := by
    have c1 := clrncpy_at t1 (b := '/' :: (s ++ G)) (ok_cons.2 ⟨by decide, ok_append s1 hG⟩) r (n := t.length) rfl
    have c2 := clrncpy_at s1 hG r (n := (s.length : Int) + 1 - 1) (by omega)
    simp only [List.cons_append, List.append_assoc] at c1
    simp only [contentTypeNames, d1, d2, List.drop_one, List.tail_cons, c1, c2, Option.bind_eq_bind, Option.bind_some]
    rw [if_neg (by omega), if_neg (by omega), show trim t = t from t3, show trim s = s from s3]
    rfl
  unfold osip_content_type_parse
  simp only [hd, ha, Option.bind_eq_bind, Option.bind_some, if_false, f1, f2, ho]
  rw [if_neg (by decide)]
  by_cases hG0 : G = []
  · subst hG0
    have hc := cstr_at (s := '/' :: s) (ok_cons.2 ⟨by decide, s1⟩) r
    have hdr : ('/' :: (s ++ NUL :: r)).drop ('/' :: s).length = NUL :: r := by
      simp only [List.length_cons, List.drop_succ_cons]; exact drop_len _
    simp only [List.cons_append] at hc
    simp only [if_true, List.nil_append, hc, Option.bind_some, hdr]
    exact key
  · simp only [hG0, if_false]
    exact key

theorem cut_params (v : Str) : ∃ e tl : Str, v = e ++ tl ∧ ';' ∉ e ∧ Follows tl := by
  by_cases hm : ';' ∈ v
  · obtain ⟨a, b, e, ha⟩ := mem_first hm
    exact ⟨a, ';' :: b, e, ha, .inr ⟨b, rfl⟩⟩
  · exact ⟨v, [], by simp, hm, .inl rfl⟩

/-- Parameters which were found are read back. -/
theorem tail_stable {tl : Str} (ht : tl.Ok) (hl : NoTab tl) (hf : Follows tl) (r : List Char) {ps : List Param}
    (h : optParams [] (if tl = [] then none else some (tl ++ NUL :: r)) = some (OSIP_SUCCESS, ps)) (hn : NoneEmpty ps) : Stable ps := by
  rcases hf with rfl | ⟨t, rfl⟩
  · exact opt_stable (g := none) (by simp) r h hn
  · refine opt_stable (g := some t) ?_ r (by simpa using h) hn
    intro x hx; cases hx
    exact ⟨(ok_cons.1 ht).2, noTab_cons hl⟩

theorem opt_bind {tl : Str} {r : List Char} {β : Type} {f : Int × List Param → Option (Int × β)} {x : β}
    (h : (optParams [] (if tl = [] then none else some (tl ++ NUL :: r))).bind f = some (OSIP_SUCCESS, x))
    (hf : ∀ i ps, i ≠ OSIP_SUCCESS → f (i, ps) ≠ some (OSIP_SUCCESS, x)) :
    ∃ ps, optParams [] (if tl = [] then none else some (tl ++ NUL :: r)) = some (OSIP_SUCCESS, ps) ∧ f (OSIP_SUCCESS, ps) = some (OSIP_SUCCESS, x) := by
  cases ho : optParams [] (if tl = [] then none else some (tl ++ NUL :: r)) with
  | none => rw [ho] at h; simp at h
  | some o =>
    obtain ⟨i, ps⟩ := o
    rw [ho, Option.bind_some] at h
    by_cases hi : i = OSIP_SUCCESS
    · subst hi; exact ⟨ps, rfl, h⟩
    · exact absurd h (hf i ps hi)

theorem read_entry {e tl : Str} (he : e.Ok) (ht : tl.Ok) (r : List Char) {x : ListEntry}
    (h : entryRest (e ++ (tl ++ NUL :: r)) (if tl = [] then none else some (tl ++ NUL :: r)) = some (OSIP_SUCCESS, x)) :
    ∃ ps, x = { element := some (trim e), gen_params := ps } ∧ e ≠ [] ∧
      optParams [] (if tl = [] then none else some (tl ++ NUL :: r)) = some (OSIP_SUCCESS, ps) := by
  unfold entryRest at h
  obtain ⟨ps, ho, h⟩ := opt_bind h (by
    intro i ps hi
    simp only
    rw [if_pos (show i ≠ 0 from hi)]
    intro hc
    cases hc
    exact hi rfl)
  simp only at h
  rw [if_neg (by decide)] at h
  have key : entryElement ps (e ++ (tl ++ NUL :: r)) (tl ++ NUL :: r) = some (OSIP_SUCCESS, x) := by
    by_cases h0 : tl = []
    · subst h0
      simpa only [if_true, List.nil_append, cstr_at he, Option.bind_eq_bind, Option.bind_some, drop_len] using h
    · simpa only [if_neg h0] using h
  have c1 := clrncpy_at he ht r (n := e.length) rfl
  simp only [entryElement, pdiff_app, c1, Option.bind_eq_bind, Option.bind_some] at key
  by_cases h0 : e = []
  · subst h0
    cases key
  · have := List.length_pos_iff.2 h0
    rw [if_neg (by omega)] at key
    cases key
    exact ⟨ps, rfl, h0, ho⟩

/-- A trimmed string which is not empty starts with a character which is not blank. -/
theorem starts {a b : Str} (h : Trimmed (a ++ b)) (h0 : a ≠ []) : ∃ c a', a = c :: a' ∧ isBlank c = false := by
  cases a with
  | nil => exact absurd rfl h0
  | cons c a =>
    obtain ⟨x, _, m, _, e, _, hx, _⟩ := trimmed_ends h (by simp)
    simp only [List.cons_append, List.cons.injEq] at e
    exact ⟨c, a, rfl, by rw [e.1]; exact hx⟩

theorem starts_trim {a b : Str} (h : Trimmed (a ++ b)) (h0 : a ≠ []) : trim a ≠ [] := by
  obtain ⟨c, a', rfl, hc⟩ := starts h h0
  obtain ⟨t', _, e, _⟩ := trim_end (s := c :: a') rfl hc
  rw [e]; simp

theorem stable_encoding {v : Str} (hv : Handed v) (hl : NoTab v) {x : ListEntry}
    (h : osip_accept_encoding_parse (Str.buf v) = some (OSIP_SUCCESS, x)) (hn : NoneEmpty x.gen_params) :
    ∃ text, osip_entry_to_str (some x) = some (OSIP_SUCCESS, some text) ∧ osip_accept_encoding_parse (Str.buf text) = some (OSIP_SUCCESS, x) := by
  obtain ⟨e, tl, rfl, hs, hf⟩ := cut_params v
  obtain ⟨ho, ht⟩ := hv
  obtain ⟨heo, hto⟩ := ok_append_iff.1 ho
  have f := cstrchr_follows heo hs hto hf []
  simp only [osip_accept_encoding_parse, Str.buf, List.append_assoc, f, Option.bind_eq_bind, Option.bind_some] at h
  obtain ⟨ps, rfl, h0, hp⟩ := read_entry heo hto [] h
  have st := tail_stable hto (noTab_append.1 hl).2 hf [] hp hn
  refine ⟨_, entry_to_str _ _, ?_⟩
  have so := stable_ok st 0
  have sr := stable_read st 0 []
  rw [padded_zero] at so sr
  have g := cstrchr_follows (ok_trim heo) (trim_mem hs) so (params_follow ps) []
  simp only [osip_accept_encoding_parse, Str.buf, List.append_assoc, g, Option.bind_eq_bind, Option.bind_some]
  exact entry_stable (ok_trim heo) (starts_trim ht h0) (trim_trim _) so [] sr

theorem stable_info {v : Str} (hv : Handed v) (hl : NoTab v) {x : ListEntry}
    (h : osip_call_info_parse (Str.buf v) = some (OSIP_SUCCESS, x)) (hn : NoneEmpty x.gen_params) :
    ∃ text, osip_entry_to_str (some x) = some (OSIP_SUCCESS, some text) ∧ osip_call_info_parse (Str.buf text) = some (OSIP_SUCCESS, x) := by
  obtain ⟨ho, ht⟩ := hv
  unfold osip_call_info_parse at h
  rcases cstrchr_str (c := '<') ho (by decide) with ⟨_, f1⟩ | ⟨a, w, rfl, ha1, ha2, hw, f1⟩
  · simp only [Str.buf, f1, Option.bind_eq_bind, Option.bind_some] at h
    cases h
  rcases cstrchr_str (c := '>') hw (by decide) with ⟨_, f2⟩ | ⟨u, w', rfl, hu1, hu2, hw', f2⟩
  · simp only [Str.buf, f1, Option.bind_eq_bind, Option.bind_some, List.cons_append, List.drop_one, List.tail_cons, f2] at h
    cases h
  obtain ⟨b, tl, rfl, hs, hf⟩ := cut_params w'
  obtain ⟨hbo, hto⟩ := ok_append_iff.1 hw'
  have f := cstrchr_follows hbo hs hto hf []
  have f2' := f2 []
  have f1' := f1 []
  simp only [List.append_assoc, List.cons_append] at f1' f2'
  simp only [Str.buf, f1', Option.bind_eq_bind, Option.bind_some, List.cons_append, List.drop_one, List.tail_cons, f2', f,
    List.append_assoc] at h
  have hA : Str.Ok (a ++ '<' :: (u ++ '>' :: b)) := ok_append ha2 (ok_cons.2 ⟨by decide, ok_append hu2 (ok_cons.2 ⟨by decide, hbo⟩)⟩)
  have e0 : a ++ '<' :: (u ++ '>' :: (b ++ tl)) = (a ++ '<' :: (u ++ '>' :: b)) ++ tl := by simp
  obtain ⟨ps, rfl, h0, hp⟩ := read_entry hA hto [] (by simpa using h)
  rw [e0] at ht hl
  have st := tail_stable hto (noTab_append.1 hl).2 hf [] hp hn
  -- the element without the blanks at its end
  obtain ⟨c, A', hA', hc⟩ := starts ht h0
  obtain ⟨t', w, e1, e2, hw2⟩ := trim_end hA' hc
  have hsplit : a ++ '<' :: (u ++ '>' :: b) = trim (a ++ '<' :: (u ++ '>' :: b)) ++ w := by rw [e1, hA', e2]; rfl
  obtain ⟨b', hb', rfl⟩ : ∃ b', trim (a ++ '<' :: (u ++ '>' :: b)) = a ++ '<' :: (u ++ '>' :: b') ∧ b = b' ++ w := by
    generalize trim (a ++ '<' :: (u ++ '>' :: b)) = T at hsplit ⊢
    have hq : '>' ∉ w := fun hm => absurd (hw2 _ hm) (by decide)
    have e5 : a ++ '<' :: (u ++ '>' :: b) = (a ++ '<' :: u) ++ '>' :: b := by simp
    rw [e5] at hsplit
    rcases List.append_eq_append_iff.1 hsplit with ⟨a', h1, h2⟩ | ⟨c', h1, h2⟩
    · cases a' with
      | nil => exact absurd (by rw [← List.nil_append w, ← h2]; simp) hq
      | cons y a' =>
        simp only [List.cons_append, List.cons.injEq] at h2
        exact ⟨a', by rw [h1, ← h2.1]; simp, h2.2⟩
    · exact absurd (by rw [h2]; simp) hq
  have htr := trim_trim (a ++ '<' :: (u ++ '>' :: (b' ++ w)))
  rw [hb'] at htr ⊢
  refine ⟨_, entry_to_str _ _, ?_⟩
  have so := stable_ok st 0
  have sr := stable_read st 0 []
  rw [padded_zero] at so sr
  have hbo' := (ok_append_iff.1 hbo).1
  have g := cstrchr_follows hbo' (fun hm => hs (by simp [hm])) so (params_follow ps) []
  have g1 := cstrchr_found (c := '<') ha2 ha1 (u ++ '>' :: (b' ++ (ps.flatMap paramToStr ++ [NUL])))
  have g2 := cstrchr_found (c := '>') hu2 hu1 (b' ++ (ps.flatMap paramToStr ++ [NUL]))
  have k := entry_stable (e := a ++ '<' :: (u ++ '>' :: b')) (ok_append ha2 (ok_cons.2 ⟨by decide, ok_append hu2 (ok_cons.2 ⟨by decide, hbo'⟩)⟩)) (by simp) htr so [] sr
  simp only [List.append_assoc, List.cons_append] at k
  simp only [osip_call_info_parse, Str.buf, List.append_assoc, List.cons_append, g1, g2, g, Option.bind_eq_bind, Option.bind_some,
    List.drop_one, List.tail_cons]
  exact k

theorem spaced_padded : spaced = padded 1 := by
  funext p; simp [spaced, padded]

theorem stable_media {v : Str} (hv : Handed v) (h0 : v ≠ []) (hl : NoTab v) {x : MediaType}
    (h : osip_content_type_parse (some (Str.buf v)) = some (OSIP_SUCCESS, x)) (hn : NoneEmpty x.gen_params)
    (hsub : x.subtype ≠ some []) (hval : ∀ p ∈ x.gen_params, p.gvalue ≠ none) :
    ∃ t s, t ≠ [] ∧ x.type = some t ∧ x.subtype = some s ∧
      osip_content_type_parse (some (Str.buf (mediaText t s x.gen_params))) = some (OSIP_SUCCESS, x) := by
  obtain ⟨ho, ht⟩ := hv
  obtain ⟨e, tl, rfl, hs, hf⟩ := cut_params v
  obtain ⟨heo, hto⟩ := ok_append_iff.1 ho
  have f := cstrchr_follows heo hs hto hf []
  unfold osip_content_type_parse at h
  have hd : ∃ c, deref (e ++ (tl ++ [NUL])) = some c ∧ c ≠ NUL := by
    cases hc : e ++ tl with
    | nil => exact absurd hc h0
    | cons c w =>
      refine ⟨c, ?_, ?_⟩
      · rw [← List.append_assoc, hc]; rfl
      · rw [hc] at ho; exact (ok_cons.1 ho).1
  obtain ⟨c, hd, hc⟩ := hd
  simp only [Str.buf, List.append_assoc, f, hd, hc, if_false, Option.bind_eq_bind, Option.bind_some] at h
  rcases cstrchr_str (c := '/') ho (by decide) with ⟨_, f1⟩ | ⟨t, w, e1, ht1, ht2, hw, f1⟩
  · have f1 := f1 []
    simp only [List.append_assoc] at f1
    simp only [f1, Option.bind_some] at h
    cases h
  have f1 := f1 []
  simp only [List.append_assoc, List.cons_append] at f1
  simp only [f1, Option.bind_some] at h
  obtain ⟨ps, hp, h⟩ := opt_bind h (by
    intro i ps hi
    simp only
    rw [if_pos (show i ≠ 0 from hi)]
    intro hx
    cases hx
    exact hi rfl)
  simp only at h
  rw [if_neg (by decide)] at h
  -- where the slash is
  obtain ⟨s, rfl, rfl⟩ : ∃ s : Str, e = t ++ '/' :: s ∧ w = s ++ tl := by
    rcases List.append_eq_append_iff.1 e1 with ⟨a', g1, g2⟩ | ⟨c', g1, g2⟩
    · -- the slash is behind the semicolon
      exfalso
      rcases hf with rfl | ⟨u, rfl⟩
      · simp at g2
      · rw [if_neg (by simp)] at h
        simp only at h
        unfold contentTypeNames at h
        have l1 : ((';' :: u ++ [NUL]).length : Int) = a'.length + 1 + w.length + 1 := by
          have := congrArg List.length g2
          simp only [List.length_cons, List.length_append, List.length_nil] at this ⊢
          omega
        split at h
        · cases h
        · simp only [Option.bind_eq_bind, Option.bind_eq_some_iff] at h
          obtain ⟨_, _, h⟩ := h
          rw [if_pos (by
            simp only [pdiff, List.length_cons, List.length_append, List.length_nil] at l1 ⊢
            omega)] at h
          cases h
    · cases c' with
      | nil =>
        exfalso
        simp only [List.nil_append] at g2
        rcases hf with rfl | ⟨u, rfl⟩
        · simp at g2
        · simp at g2
      | cons y s =>
        simp only [List.cons_append, List.cons.injEq] at g2
        exact ⟨s, by rw [g1, ← g2.1], g2.2⟩
  have hso : s.Ok := (ok_cons.1 (ok_append_iff.1 heo).2).2
  have hs1 : ';' ∉ t := fun hm => hs (by simp [hm])
  have hs2 : ';' ∉ s := fun hm => hs (by simp [hm])
  have key : contentTypeNames ps (t ++ '/' :: (s ++ (tl ++ [NUL]))) ('/' :: (s ++ (tl ++ [NUL]))) (tl ++ [NUL]) = some (OSIP_SUCCESS, x) := by
    by_cases h0 : tl = []
    · subst h0
      have hc := cstr_at (s := '/' :: s) (ok_cons.2 ⟨by decide, hso⟩) []
      have hdr : ('/' :: (s ++ [NUL])).drop ('/' :: s).length = [NUL] := by
        simp only [List.length_cons, List.drop_succ_cons]; exact drop_len _
      simp only [List.cons_append] at hc
      simpa only [if_true, List.nil_append, List.append_nil, List.append_assoc, List.cons_append, hc, Option.bind_eq_bind, Option.bind_some, hdr] using h
    · simpa only [if_neg h0, List.append_assoc, List.cons_append] using h
  have d1 : pdiff ('/' :: (s ++ (tl ++ [NUL]))) (t ++ '/' :: (s ++ (tl ++ [NUL]))) = t.length := pdiff_app _ _
  have d2 : pdiff (tl ++ [NUL]) ('/' :: (s ++ (tl ++ [NUL]))) = s.length + 1 := by
    have := pdiff_app ('/' :: s) (tl ++ [NUL])
    simpa using this
  have c1 := clrncpy_at ht2 (b := '/' :: (s ++ tl)) (ok_cons.2 ⟨by decide, ok_append hso hto⟩) [] (n := t.length) rfl
  have c2 := clrncpy_at hso hto [] (n := (s.length : Int) + 1 - 1) (by omega)
  simp only [List.cons_append, List.append_assoc] at c1
  simp only [contentTypeNames, d1, d2, List.drop_one, List.tail_cons, c1, c2, Option.bind_eq_bind, Option.bind_some] at key
  have t0 : t ≠ [] := by
    rintro rfl
    cases key
  have := List.length_pos_iff.2 t0
  rw [if_neg (by omega)] at key
  split at key
  · cases key
  cases key
  simp only at hsub hval hn
  have st := tail_stable hto (noTab_append.1 hl).2 hf [] hp hn
  have ttr : trim t ≠ [] := starts_trim (b := '/' :: s ++ tl) (by simpa using ht) t0
  refine ⟨trim t, trim s, ttr, rfl, rfl, ?_⟩
  have so := stable_ok st 1
  have sr := stable_read st 1 []
  have hT : mediaText (trim t) (trim s) ps = trim t ++ '/' :: (trim s ++ (ps.map (padded 1)).flatMap paramToStr) := by
    rw [mediaText, spaced_params hval, spaced_padded]
  have := media_stable (ok_trim ht2) ttr (trim_trim t) (trim_mem ht1) (trim_mem hs1) (ok_trim hso) (fun hx => hsub (by rw [hx]))
    (trim_trim s) (trim_mem hs2) so (params_follow _) [] sr
  rw [hT, Str.buf]
  simpa using this

/-! ## Properties -/

theorem stable_call_id {v : Str} (hv : Handed v) {x : CallId} (h : osip_call_id_parse (Str.buf v) = some (OSIP_SUCCESS, x)) :
    ∃ text, osip_call_id_to_str (some x) = some (OSIP_SUCCESS, some text) ∧ osip_call_id_parse (Str.buf text) = some (OSIP_SUCCESS, x) := by
  obtain ⟨ho, ht⟩ := hv
  obtain ⟨c, h1, h2⟩ := c49_call_id_parse ho []
  rw [Str.buf, h1] at h
  cases h
  by_cases hm : '@' ∈ v
  · obtain ⟨a, b, rfl, ha⟩ := mem_first hm
    rw [cutAt_some b ha] at h2
    obtain ⟨hao, hbo⟩ := ok_append_iff.1 ho
    cases a with
    | nil => simp [OSIP_SYNTAXERROR, OSIP_SUCCESS] at h2
    | cons d a =>
      simp only [Prod.mk.injEq, true_and] at h2
      subst h2
      exact c49_call_id_round_trip (ok_trim hao) (by rintro _ ⟨⟩; exact ok_trim (ok_cons.1 hbo).2) (starts_trim ht (by simp)) (trim_mem ha)
        (trim_trim _) (by rintro _ ⟨⟩; exact trim_trim _) []
  · rw [cutAt_none hm] at h2
    by_cases h0 : v = []
    · simp [h0, OSIP_SYNTAXERROR, OSIP_SUCCESS] at h2
    · simp only [h0, if_false, Prod.mk.injEq, true_and] at h2
      subst h2
      rw [show trim v = v from ht]
      exact c49_call_id_round_trip ho (by simp) h0 hm ht (by simp) []

theorem dropWhile_blank_head (s : Str) : NoLeadingBlank (s.dropWhile isBlank) := by
  intro c hc hm
  induction s with
  | nil => simp at hc
  | cons d s ih =>
    by_cases hd : isBlank d = true
    · rw [List.dropWhile_cons_of_pos hd] at hc; exact ih hc
    · rw [List.dropWhile_cons_of_neg hd] at hc
      simp at hc
      subst hc
      exact hd (isBlank_iff.2 hm)

theorem stable_cseq {v : Str} (hv : Handed v) {x : CSeq} (h : osip_cseq_parse (Str.buf v) = some (OSIP_SUCCESS, x)) :
    ∃ text, osip_cseq_to_str (some x) = some (OSIP_SUCCESS, some text) ∧ osip_cseq_parse (Str.buf text) = some (OSIP_SUCCESS, x) := by
  obtain ⟨ho, ht⟩ := hv
  have h1 := c49_cseq_parse ho []
  rw [Str.buf, h1] at h
  by_cases hm : ' ' ∈ v
  · obtain ⟨a, b, rfl, ha⟩ := mem_first hm
    rw [cutAt_some b ha] at h
    obtain ⟨hao, hbo⟩ := ok_append_iff.1 ho
    cases a with
    | nil => simp [OSIP_SYNTAXERROR, OSIP_SUCCESS] at h
    | cons d a =>
      simp only [Option.some.injEq, Prod.mk.injEq, true_and] at h
      subst h
      exact c49_cseq_round_trip (ok_trim hao) (fun hx => (ok_cons.1 hbo).2 ((List.dropWhile_sublist _).subset hx)) (starts_trim ht (by simp))
        (trim_mem ha) (trim_trim _) (dropWhile_blank_head b) []
  · rw [cutAt_none hm] at h
    simp [OSIP_SYNTAXERROR, OSIP_SUCCESS] at h

/-- **C127** for the headers without parameters. Whatever was read of a Call-ID, CSeq, Content-Length, Mime-Version, Allow or
Content-Encoding is written, and what is written is read as the same. -/
theorem c127_plain (fresh : Nat → Buf) (sscanf : Str → Option Nat) {k : Setter}
    (hk : k ∈ [.call_id, .cseq, .content_length, .mime_version, .allow, .content_encoding]) {v : Str} (hv : Handed v) {x : HeaderVal}
    (h : parseHeader sscanf k (some (Str.buf v)) = some (OSIP_SUCCESS, x)) : WrittenBack fresh sscanf k x := by
  have hval : ∀ y, osip_content_length_parse (some (Str.buf v)) = some (OSIP_SUCCESS, y) →
      ∃ text, osip_content_length_to_str (some y) = some (OSIP_SUCCESS, some text) ∧
        osip_content_length_parse (some (Str.buf text)) = some (OSIP_SUCCESS, y) := by
    intro y hy
    by_cases h0 : v = []
    · subst h0
      cases hy
    · have e := c79_value_round_trip hv.1 h0
      have e2 := e.2 []
      rw [← Str.buf, hy] at e2
      cases e2
      exact ⟨v, e.1, e.2 []⟩
  simp only [List.mem_cons, List.not_mem_nil, or_false] at hk
  rcases hk with rfl | rfl | rfl | rfl | rfl | rfl
  · simp only [parseHeader, Option.bind_some, Option.map_eq_some_iff] at h
    obtain ⟨⟨i, y⟩, h1, h2⟩ := h
    cases h2
    obtain ⟨text, e1, e2⟩ := stable_call_id hv h1
    exact ⟨text, e1, by simp [parseHeader, e2]⟩
  · simp only [parseHeader, Option.bind_some, Option.map_eq_some_iff] at h
    obtain ⟨⟨i, y⟩, h1, h2⟩ := h
    cases h2
    obtain ⟨text, e1, e2⟩ := stable_cseq hv h1
    exact ⟨text, e1, by simp [parseHeader, e2]⟩
  all_goals
    simp only [parseHeader, Option.map_eq_some_iff] at h
    obtain ⟨⟨i, y⟩, h1, h2⟩ := h
    cases h2
    obtain ⟨text, e1, e2⟩ := hval y h1
    exact ⟨text, e1, by simp [parseHeader, e2]⟩

/-- **C127** for the headers with parameters, in one line without tabs, if no name or value is blank. Missing: blank names and values
and tabs, for which it is false (`c127_violated`), and Via and the headers with addresses. -/
theorem c127_params_partial (fresh : Nat → Buf) (sscanf : Str → Option Nat) {k : Setter}
    (hk : k ∈ [.accept_encoding, .accept_language, .call_info, .alert_info, .error_info, .content_type, .accept]) {v : Str} (hv : Handed v)
    (h0 : v ≠ []) (hl : NoTab v) {x : HeaderVal} (h : parseHeader sscanf k (some (Str.buf v)) = some (OSIP_SUCCESS, x))
    (hn : NothingEmpty x) (hp : ∀ ct, x = .media ct → ∀ p ∈ ct.gen_params, p.gvalue ≠ none) : WrittenBack fresh sscanf k x := by
  simp only [List.mem_cons, List.not_mem_nil, or_false] at hk
  rcases hk with rfl | rfl | rfl | rfl | rfl | rfl | rfl
  case inl | inr.inl =>
    simp only [parseHeader, Option.bind_some, Option.map_eq_some_iff] at h
    obtain ⟨⟨i, y⟩, h1, h2⟩ := h
    cases h2
    obtain ⟨text, e1, e2⟩ := stable_encoding hv hl h1 hn
    exact ⟨text, e1, by simp [parseHeader, e2]⟩
  case inr.inr.inl | inr.inr.inr.inl | inr.inr.inr.inr.inl =>
    simp only [parseHeader, Option.bind_some, Option.map_eq_some_iff] at h
    obtain ⟨⟨i, y⟩, h1, h2⟩ := h
    cases h2
    obtain ⟨text, e1, e2⟩ := stable_info hv hl h1 hn
    exact ⟨text, e1, by simp [parseHeader, e2]⟩
  all_goals
    simp only [parseHeader, Option.map_eq_some_iff] at h
    obtain ⟨⟨i, y⟩, h1, h2⟩ := h
    cases h2
    have hval := hp y rfl
    obtain ⟨t, s, t0, e1, e2, e3⟩ := stable_media hv h0 hl h1 hn.1 hn.2 hval
    obtain ⟨ty, su, ps⟩ := y
    simp only at e1 e2 e3 hval
    subst e1 e2
    refine ⟨mediaText t s ps, ?_, by simp only [parseHeader, e3, Option.map_some]⟩
    have := List.length_pos_iff.2 t0
    simp only [headerToStr, if_true, if_false, reduceCtorEq, osip_content_type_to_str, osip_accept_to_str, Option.getD_some]
    try rw [if_neg (by omega)]
    simp only [Option.bind_eq_bind, Option.bind_some]
    rw [put_fits (by simp; omega)]
    simp only [Option.bind_eq_bind, Option.bind_some]
    rw [mediaParamsStr_run _ _ _ hval]
    simp [mediaText]

/-- **C127**. A header which is not known to the library is kept as it is and written with exactly its name, with a capital letter, and exactly
its value. -/
theorem c127_other {n v : Str} (hn : Handed n) (h0 : n ≠ []) (hv : Handed v) {x : Header}
    (h : osip_message_set_header (some (Str.buf n)) (some (Str.buf v)) = some (OSIP_SUCCESS, some x)) :
    x = ⟨some n, some v⟩ ∧ osip_header_to_str (some x) = some (OSIP_SUCCESS, some (capital n ++ ':' :: ' ' :: v)) := by
  have e := c79_header (v := some v) hn.1 (by rw [show trim n = n from hn.2]; exact h0) (by rintro _ ⟨⟩; exact hv.1)
  have e1 := e.1 [] []
  simp only [show trim n = n from hn.2, show trim v = v from hv.2, Option.map_some, Option.getD_some] at e e1
  rw [Str.buf, Str.buf, e1] at h
  cases h
  exact ⟨rfl, e.2⟩

/-- Reads, writes and reads again. -/
def again (v : Str) : Option (ListEntry × Option Str × Option (Int × ListEntry)) := do
  let (i, x) ← osip_accept_encoding_parse (Str.buf v)
  if i ≠ 0 then none
  let (_, t) ← osip_entry_to_str (some x)
  return (x, t, (t.map Str.buf).bind osip_accept_encoding_parse)

/-- **C127** does not hold for all headers: `gzip; ;b` (a blank name) and `gzip;x= ;b` (a blank value) are read, and what is written is
refused; `gzip;a=<tab>"x;y"` is read as two parameters, and what is written is read as one. The blank subtype of `text/ ;a=b` is
refused as well. -/
theorem c127_violated (fresh : Nat → Buf) (sscanf : Str → Option Nat) :
    (∀ v ∈ ["gzip; ;b", "gzip;x= ;b", "gzip;a=\t\"x;y\""], Handed v.toList ∧
      ∃ x, parseHeader sscanf .accept_encoding (some (Str.buf v.toList)) = some (OSIP_SUCCESS, x) ∧
        ¬ WrittenBack fresh sscanf .accept_encoding x) ∧
    ∃ x, parseHeader sscanf .content_type (some (Str.buf "text/ ;a=b".toList)) = some (OSIP_SUCCESS, x) ∧
      ¬ WrittenBack fresh sscanf .content_type x := by
  have key : ∀ (v : Str) (x : ListEntry) (t : Str), osip_accept_encoding_parse (Str.buf v) = some (OSIP_SUCCESS, x) →
      osip_entry_to_str (some x) = some (OSIP_SUCCESS, some t) → osip_accept_encoding_parse (Str.buf t) ≠ some (OSIP_SUCCESS, x) →
      ∃ y, parseHeader sscanf .accept_encoding (some (Str.buf v)) = some (OSIP_SUCCESS, y) ∧
        ¬ WrittenBack fresh sscanf .accept_encoding y := by
    intro v x t h1 h2 h3
    refine ⟨.entry x, by simp [parseHeader, h1], ?_⟩
    rintro ⟨text, g1, g2⟩
    simp only [headerToStr, h2, Option.some.injEq, Prod.mk.injEq, true_and] at g1
    subst g1
    simp only [parseHeader, Option.bind_some, Option.map_eq_some_iff] at g2
    obtain ⟨⟨i, y⟩, g2, g3⟩ := g2
    cases g3
    exact h3 g2
  refine ⟨?_, ?_⟩
  · intro v hv
    simp only [List.mem_cons, List.not_mem_nil, or_false] at hv
    rcases hv with rfl | rfl | rfl
    · exact ⟨⟨by unfold Str.Ok; decide +kernel, by unfold Trimmed; decide +kernel⟩,
        key _ ⟨some "gzip".toList, [⟨[], none⟩, ⟨['b'], none⟩]⟩ "gzip;;b".toList (by decide +kernel) (by decide +kernel) (by decide +kernel)⟩
    · exact ⟨⟨by unfold Str.Ok; decide +kernel, by unfold Trimmed; decide +kernel⟩,
        key _ ⟨some "gzip".toList, [⟨['x'], some []⟩, ⟨['b'], none⟩]⟩ "gzip;x=;b".toList (by decide +kernel) (by decide +kernel) (by decide +kernel)⟩
    · exact ⟨⟨by unfold Str.Ok; decide +kernel, by unfold Trimmed; decide +kernel⟩,
        key _ ⟨some "gzip".toList, [⟨['a'], some "\"x".toList⟩, ⟨"y\"".toList, none⟩]⟩ "gzip;a=\"x;y\"".toList (by decide +kernel) (by decide +kernel)
          (by decide +kernel)⟩
  · have h1 : osip_content_type_parse (some (Str.buf "text/ ;a=b".toList)) =
        some (OSIP_SUCCESS, ⟨some "text".toList, some [], [⟨['a'], some ['b']⟩]⟩) := by decide +kernel
    have h2 : osip_content_type_to_str (some ⟨some "text".toList, some [], [⟨['a'], some ['b']⟩]⟩) =
        some (OSIP_SUCCESS, some "text/; a=b".toList) := by decide +kernel
    have h3 : osip_content_type_parse (some (Str.buf "text/; a=b".toList)) ≠
        some (OSIP_SUCCESS, ⟨some "text".toList, some [], [⟨['a'], some ['b']⟩]⟩) := by decide +kernel
    refine ⟨.media ⟨some "text".toList, some [], [⟨['a'], some ['b']⟩]⟩, by simp only [parseHeader, h1, Option.map_some], ?_⟩
    rintro ⟨text, g1, g2⟩
    simp only [headerToStr, reduceCtorEq, if_false, h2, Option.some.injEq, Prod.mk.injEq, true_and] at g1
    subst g1
    simp only [parseHeader, Option.map_eq_some_iff] at g2
    obtain ⟨⟨i, y⟩, g2, g3⟩ := g2
    cases g3
    exact h3 g2

/-! ## Examples -/

/-- A quoted string without end and with semicolons, an escaped quote, blanks everywhere. -/
example : again "gzip ; q = 1 ; x = \"a;\\\"b\" c; y=\"open;z=1".toList =
    some (⟨some "gzip".toList, [⟨['q'], some ['1']⟩, ⟨['x'], some "\"a;\\\"b\" c".toList⟩, ⟨['y'], some "\"open;z=1".toList⟩]⟩,
      some "gzip;q=1;x=\"a;\\\"b\" c;y=\"open;z=1".toList,
      some (0, ⟨some "gzip".toList, [⟨['q'], some ['1']⟩, ⟨['x'], some "\"a;\\\"b\" c".toList⟩, ⟨['y'], some "\"open;z=1".toList⟩]⟩)) := by
  decide +kernel

end Osip
