import Verif.Parse.ParamList
import Verif.Parse.PropsFrom
import Verif.Parse.PropsMime

/-!
# C131: parameters by their names
-/

set_option autoImplicit false

namespace Osip

/-! ## Specification -/

/-- The block holds the string. -/
def HoldsStr (b : Buf) (s : Str) : Prop := s.Ok ∧ ∃ r, b = s ++ NUL :: r

/-- The structure holds the parameter. -/
structure HoldsParam (x : RawParam) (p : Param) : Prop where
  name : ∃ b, x.gname = some b ∧ HoldsStr b p.gname
  value : (x.gvalue = none ∧ p.gvalue = none) ∨ ∃ b v, x.gvalue = some b ∧ p.gvalue = some v ∧ HoldsStr b v

/-- The list holds the parameters, in order. -/
inductive HoldsParams : List RawParam → List Param → Prop
  | nil : HoldsParams [] []
  | cons {x : RawParam} {p : Param} {l : List RawParam} {ps : List Param} : HoldsParam x p → HoldsParams l ps → HoldsParams (x :: l) (p :: ps)

/-! ## Lemmas -/

theorem str_block {b : Buf} : ∀ {t : Str}, Buf.str b = t → t.length < b.length → t.Ok ∧ ∃ r, b = t ++ NUL :: r := by
  induction b with
  | nil => intro t _ hl; simp at hl
  | cons c b ih =>
    intro t h hl
    by_cases hc : c = NUL
    · subst hc
      have : t = [] := by rw [← h]; simp [Buf.str]
      subst this
      exact ⟨by simp [Str.Ok], b, rfl⟩
    · have e : Buf.str (c :: b) = c :: Buf.str b := by simp [Buf.str, hc]
      rw [e] at h
      subst h
      obtain ⟨h1, r, h2⟩ := ih rfl (by simpa using hl)
      refine ⟨?_, r, by rw [List.cons_append, ← h2]⟩
      intro hm
      rcases List.mem_cons.1 hm with hm | hm
      · exact hc hm.symm
      · exact h1 hm

theorem trim_length (s : Str) : (trim s).length ≤ s.length := by
  rw [trim_eq]
  have h1 := (List.dropWhile_sublist (l := (s.dropWhile isBlank).reverse) isBlank).length_le
  have h2 := (List.dropWhile_sublist (l := s) isBlank).length_le
  simp only [List.length_reverse] at h1 ⊢
  omega

theorem clrspace_block {s : Str} (hs : s.Ok) (r : List Char) :
    ∃ b, osip_clrspace (some (s ++ NUL :: r)) = some (OSIP_SUCCESS, some b) ∧ HoldsStr b (trim s) := by
  obtain ⟨u, h1, h2, h3⟩ := c39_clrspace hs r
  refine ⟨u ++ r, h2, str_block h3 ?_⟩
  have := trim_length s
  simp only [List.length_append]
  omega

theorem name_compare {s t : Str} (hs : s.Ok) (ht : t.Ok) (hl : s.length = t.length) (q r : List Char) :
    ∃ k, osip_strncasecmp (s ++ NUL :: q) (t ++ NUL :: r) t.length = some k ∧ (k = 0 ↔ lower s = lower t) := by
  have := c57_strncasecmp hs ht q r t.length
  rwa [List.take_length, List.take_of_length_le (by omega)] at this

theorem lower_length {s t : Str} (h : lower s = lower t) : s.length = t.length := by
  have := congrArg List.length h
  simpa [lower] using this

/-- What the loop finds. -/
theorem loop_spec {n : Str} (hn : n.Ok) (r : List Char) {l : List RawParam} {ps : List Param} (h : HoldsParams l ps) :
    getByNameLoop (n ++ NUL :: r) n.length l =
      some (((l.zip ps).find? fun q => lower q.2.gname = lower n).elim (OSIP_UNDEFINED_ERROR, none) fun q => (OSIP_SUCCESS, some q.1)) := by
  induction h with
  | nil => rfl
  | @cons x p l ps hx _ ih =>
    obtain ⟨b, e, hok, q, rfl⟩ := hx.name
    simp only [getByNameLoop, e, Option.bind_eq_bind, Option.bind_some, cstr_at hok, List.zip_cons_cons, List.find?_cons]
    by_cases hl : n.length = p.gname.length
    · rw [if_pos hl]
      obtain ⟨k, h1, h2⟩ := name_compare hok hn hl.symm q r
      rw [h1, Option.bind_some]
      by_cases hk : k = 0
      · rw [if_pos hk]
        simp [h2.1 hk]
      · rw [if_neg hk, ih]
        have : ¬ lower p.gname = lower n := fun h => hk (h2.2 h)
        simp [this]
    · rw [if_neg hl, ih]
      have : ¬ lower p.gname = lower n := fun h => hl (lower_length h).symm
      simp [this]

theorem holds_append {l l' : List RawParam} {ps ps' : List Param} (h : HoldsParams l ps) (h' : HoldsParams l' ps') :
    HoldsParams (l ++ l') (ps ++ ps') := by
  induction h with
  | nil => exact h'
  | cons hx _ ih => exact .cons hx ih

theorem holds_length {l : List RawParam} {ps : List Param} (h : HoldsParams l ps) : l.length = ps.length := by
  induction h with
  | nil => rfl
  | cons _ _ ih => simp [ih]

theorem byname_spec {n : Str} (hn : n.Ok) (h0 : n ≠ []) (r : List Char) {l : List RawParam} {ps : List Param} (h : HoldsParams l ps) :
    osip_uri_param_get_byname l (some (n ++ NUL :: r)) =
      some (((l.zip ps).find? fun q => lower q.2.gname = lower n).elim (OSIP_UNDEFINED_ERROR, none) fun q => (OSIP_SUCCESS, some q.1)) := by
  simp only [osip_uri_param_get_byname, Option.bind_eq_bind, cstr_at hn, Option.bind_some]
  rw [if_neg (by simpa using h0), loop_spec hn r h]

theorem find_spec {n : Str} {l : List RawParam} {ps : List Param} (h : HoldsParams l ps) :
    (∃ before p after xs x ys, ps = before ++ p :: after ∧ l = xs ++ x :: ys ∧ xs.length = before.length ∧
      (∀ q ∈ before, lower q.gname ≠ lower n) ∧ lower p.gname = lower n ∧ HoldsParam x p ∧
      (l.zip ps).find? (fun q => decide (lower q.2.gname = lower n)) = some (x, p)) ∨
    ((∀ q ∈ ps, lower q.gname ≠ lower n) ∧ (l.zip ps).find? (fun q => decide (lower q.2.gname = lower n)) = none) := by
  induction h with
  | nil => exact .inr ⟨by simp, rfl⟩
  | @cons x p l ps hx _ ih =>
    by_cases hp : lower p.gname = lower n
    · exact .inl ⟨[], p, ps, [], x, l, rfl, rfl, rfl, by simp, hp, hx, by simp [hp]⟩
    · rcases ih with ⟨be, p', af, xs, x', ys, rfl, rfl, e3, e4, e5, e6, e7⟩ | ⟨e1, e2⟩
      · refine .inl ⟨p :: be, p', af, x :: xs, x', ys, rfl, rfl, by simp [e3], ?_, e5, e6, ?_⟩
        · intro q hq
          rcases List.mem_cons.1 hq with rfl | hq
          · exact hp
          · exact e4 q hq
        · simp only [List.zip_cons_cons, List.find?_cons]
          simp only [hp, decide_false]
          exact e7
      · refine .inr ⟨?_, ?_⟩
        · intro q hq
          rcases List.mem_cons.1 hq with rfl | hq
          · exact hp
          · exact e1 q hq
        · simp only [List.zip_cons_cons, List.find?_cons]
          simp only [hp, decide_false]
          exact e2

/-! ## C131 -/

/-- **C131**. The first parameter whose name is the one asked for, in any letters, is found; if there is none, the code says so. -/
theorem c131_found {n : Str} (hn : n.Ok) (h0 : n ≠ []) (r : List Char) {l : List RawParam} {ps : List Param} (h : HoldsParams l ps) :
    (∃ before p after xs x ys, ps = before ++ p :: after ∧ l = xs ++ x :: ys ∧ xs.length = before.length ∧
      (∀ q ∈ before, lower q.gname ≠ lower n) ∧ lower p.gname = lower n ∧ HoldsParam x p ∧
      osip_uri_param_get_byname l (some (n ++ NUL :: r)) = some (0, some x)) ∨
    ((∀ q ∈ ps, lower q.gname ≠ lower n) ∧ osip_uri_param_get_byname l (some (n ++ NUL :: r)) = some (-1, none)) := by
  rw [byname_spec hn h0 r h]
  rcases find_spec (n := n) h with ⟨be, p, af, xs, x, ys, e1, e2, e3, e4, e5, e6, e7⟩ | ⟨e1, e2⟩
  · exact .inl ⟨be, p, af, xs, x, ys, e1, e2, e3, e4, e5, e6, by rw [e7]; rfl⟩
  · exact .inr ⟨e1, by rw [e2]; rfl⟩

/-- **C131**. A search without a name, or for the empty name, is refused, also if there is a parameter whose name is empty. -/
theorem c131_no_name (l : List RawParam) (r : List Char) :
    osip_uri_param_get_byname l none = some (-2, none) ∧ osip_uri_param_get_byname l (some (NUL :: r)) = some (-2, none) := by
  have := cstr_at (s := []) (by simp [Str.Ok]) r
  simp only [List.nil_append] at this
  refine ⟨rfl, ?_⟩
  simp only [osip_uri_param_get_byname, this, Option.bind_eq_bind, Option.bind_some]
  rfl

/-- The look-up which the other parts of the model use is that of the blocks. -/
theorem c131_agrees {n : String} (hn : Str.Ok n.toList) (h0 : n.toList ≠ []) (r : List Char) {l : List RawParam} {ps : List Param}
    (h : HoldsParams l ps) : ∃ res, osip_uri_param_get_byname l (some (n.toList ++ NUL :: r)) = some res ∧
      (∀ p, paramByName ps n = some p → ∃ x, res = (0, some x) ∧ HoldsParam x p) ∧ (paramByName ps n = none → res = (-1, none)) := by
  have hlo : ∀ s : Str, s.map toLowerC = lower s := by
    intro s
    exact List.map_congr_left fun c _ => lowerC_eq c
  have key : ∀ p : Param, (p.gname.length == n.toList.length && strcaseEq p.gname n.toList) = decide (lower p.gname = lower n.toList) := by
    intro p
    rw [strcaseEq, hlo, hlo]
    by_cases hp : lower p.gname = lower n.toList
    · simp only [hp, lower_length hp, BEq.rfl, Bool.and_self, decide_true]
    · simp [hp]
  have hb : paramByName ps n = ps.find? fun p => decide (lower p.gname = lower n.toList) := by
    unfold paramByName
    congr 1
    funext p
    exact key p
  rw [hb]
  rcases c131_found hn h0 r h with ⟨be, p, af, xs, x, ys, e1, e2, e3, e4, e5, e6, e7⟩ | ⟨e1, e2⟩
  · have hf : ps.find? (fun p => decide (lower p.gname = lower n.toList)) = some p := by
      rw [List.find?_eq_some_iff_append]
      exact ⟨by simpa using e5, be, af, e1, fun q hq => by simpa using e4 q hq⟩
    refine ⟨_, e7, fun p' hp' => ?_, fun hn => ?_⟩
    · rw [hf] at hp'
      cases hp'
      exact ⟨x, rfl, e6⟩
    · rw [hf] at hn; cases hn
  · have hf : ps.find? (fun p => decide (lower p.gname = lower n.toList)) = none := by
      rw [List.find?_eq_none]
      exact fun q hq => by simpa using e1 q hq
    refine ⟨_, e2, fun p' hp' => ?_, fun _ => rfl⟩
    rw [hf] at hp'; cases hp'

/-- **C131**. A parameter is added behind the others, its name and value without the blanks around them. -/
theorem c131_added {n : Str} (hn : n.Ok) (r : List Char) {v : Option Str} (hv : ∀ s ∈ v, s.Ok) (r' : List Char) {l : List RawParam}
    {ps : List Param} (h : HoldsParams l ps) :
    ∃ x, osip_uri_param_add l (some (n ++ NUL :: r)) (v.map (· ++ NUL :: r')) = some (0, l ++ [x]) ∧ HoldsParam x ⟨trim n, v.map trim⟩ ∧
      HoldsParams (l ++ [x]) (ps ++ [⟨trim n, v.map trim⟩]) := by
  obtain ⟨b, h1, h2⟩ := clrspace_block hn r
  have hx : ∃ x, osip_uri_param_set (some (n ++ NUL :: r)) (v.map (· ++ NUL :: r')) = some (0, x) ∧ HoldsParam x ⟨trim n, v.map trim⟩ := by
    cases v with
    | none =>
      refine ⟨⟨some b, none⟩, ?_, ⟨b, rfl, h2⟩, .inl ⟨rfl, rfl⟩⟩
      simp only [osip_uri_param_set, h1, Option.bind_eq_bind, Option.bind_some, Option.map_none]
      rfl
    | some s =>
      obtain ⟨b', h3, h4⟩ := clrspace_block (hv s rfl) r'
      refine ⟨⟨some b, some b'⟩, ?_, ⟨b, rfl, h2⟩, .inr ⟨b', _, rfl, rfl, h4⟩⟩
      simp only [osip_uri_param_set, h1, h3, Option.bind_eq_bind, Option.bind_some, Option.map_some]
      rfl
  obtain ⟨x, e, hx⟩ := hx
  refine ⟨x, ?_, hx, holds_append h (.cons hx .nil)⟩
  simp only [osip_uri_param_add, e, Option.bind_eq_bind, Option.bind_some]
  rfl

theorem find_append {l l' : List RawParam} {ps ps' : List Param} (h : HoldsParams l ps) (f : RawParam × Param → Bool) :
    ((l ++ l').zip (ps ++ ps')).find? f = ((l.zip ps).find? f).or ((l'.zip ps').find? f) := by
  rw [List.zip_append (holds_length h), List.find?_append]

/-- **C131**. A parameter whose name was not there is found afterwards, by its name in any letters, with the value that was given;
what is found for other names does not change. Not true if the name was there (`c131_kept`, `c131_violated`). -/
theorem c131_set_partial {n : Str} (hn : n.Ok) (r : List Char) {v : Option Str} (hv : ∀ s ∈ v, s.Ok) (r' : List Char)
    {l : List RawParam} {ps : List Param} (h : HoldsParams l ps) (hnew : ∀ q ∈ ps, lower q.gname ≠ lower (trim n)) :
    ∃ l', osip_uri_param_add l (some (n ++ NUL :: r)) (v.map (· ++ NUL :: r')) = some (0, l') ∧
      ∀ (n' : Str) (q : List Char), n'.Ok → n' ≠ [] →
        (lower n' = lower (trim n) → ∃ x, osip_uri_param_get_byname l' (some (n' ++ NUL :: q)) = some (0, some x) ∧
          HoldsParam x ⟨trim n, v.map trim⟩) ∧
        (lower n' ≠ lower (trim n) →
          osip_uri_param_get_byname l' (some (n' ++ NUL :: q)) = osip_uri_param_get_byname l (some (n' ++ NUL :: q))) := by
  obtain ⟨x, h1, h2, h3⟩ := c131_added hn r hv r' h
  refine ⟨_, h1, fun n' q hok' hne' => ⟨fun he => ⟨x, ?_, h2⟩, fun he => ?_⟩⟩
  · rw [byname_spec hok' hne' q h3, find_append h]
    have : (l.zip ps).find? (fun q => decide (lower q.2.gname = lower n')) = none := by
      rw [List.find?_eq_none]
      intro y hy
      rw [he]
      simpa using hnew y.2 (List.of_mem_zip hy).2
    rw [this]
    simp [he]
    rfl
  · rw [byname_spec hok' hne' q h3, byname_spec hok' hne' q h, find_append h]
    have : ([x].zip [(⟨trim n, v.map trim⟩ : Param)]).find? (fun q => decide (lower q.2.gname = lower n')) = none := by
      simp [Ne.symm he]
    rw [this]
    simp

/-- **C131**. If the name was there, then every search gives what it gave before: the new value is not found. -/
theorem c131_kept {n : Str} (hn : n.Ok) (r : List Char) {v : Option Str} (hv : ∀ s ∈ v, s.Ok) (r' : List Char)
    {l : List RawParam} {ps : List Param} (h : HoldsParams l ps) (hold : ∃ q ∈ ps, lower q.gname = lower (trim n)) :
    ∃ l', osip_uri_param_add l (some (n ++ NUL :: r)) (v.map (· ++ NUL :: r')) = some (0, l') ∧
      ∀ (n' : Str) (q : List Char), n'.Ok → n' ≠ [] →
        osip_uri_param_get_byname l' (some (n' ++ NUL :: q)) = osip_uri_param_get_byname l (some (n' ++ NUL :: q)) := by
  obtain ⟨x, h1, h2, h3⟩ := c131_added hn r hv r' h
  refine ⟨_, h1, fun n' q hok' hne' => ?_⟩
  rw [byname_spec hok' hne' q h3, byname_spec hok' hne' q h, find_append h]
  rcases find_spec (n := n') h with ⟨be, p, af, xs, y, ys, e1, e2, e3, e4, e5, e6, e7⟩ | ⟨e1, e2⟩
  · rw [e7]; rfl
  · have : ([x].zip [(⟨trim n, v.map trim⟩ : Param)]).find? (fun q => decide (lower q.2.gname = lower n')) = none := by
      obtain ⟨p, hp, he⟩ := hold
      have := e1 p hp
      rw [he] at this
      simp [this]
    rw [e2, this]
    rfl

/-- **C131**. A null pointer for the name, as `osip_strdup` gives it when memory runs out (`osip_from_set_tag`,
include/osipparser2/headers/osip_from.h:143), is not refused, and the next search for a name that is not there reads it. -/
theorem c131_null {v : Option Str} (hv : ∀ s ∈ v, s.Ok) (r' : List Char) {l : List RawParam} {ps : List Param} (h : HoldsParams l ps) :
    ∃ l', osip_uri_param_add l none (v.map (· ++ NUL :: r')) = some (0, l') ∧
      ∀ (n : Str) (q : List Char), n.Ok → n ≠ [] → (∀ p ∈ ps, lower p.gname ≠ lower n) →
        osip_uri_param_get_byname l' (some (n ++ NUL :: q)) = none := by
  have hx : ∃ x : RawParam, osip_uri_param_set none (v.map (· ++ NUL :: r')) = some (0, x) ∧ x.gname = none := by
    cases v with
    | none => exact ⟨⟨none, none⟩, rfl, rfl⟩
    | some s =>
      obtain ⟨b', h3, -⟩ := clrspace_block (hv s rfl) r'
      refine ⟨⟨none, some b'⟩, ?_, rfl⟩
      simp only [osip_uri_param_set, osip_clrspace.eq_1, h3, Option.bind_eq_bind, Option.bind_some, Option.map_some]
      rfl
  obtain ⟨x, e, hx⟩ := hx
  refine ⟨l ++ [x], by simp only [osip_uri_param_add, e, Option.bind_eq_bind, Option.bind_some]; rfl, ?_⟩
  intro n q hok h0 hno
  simp only [osip_uri_param_get_byname, Option.bind_eq_bind, cstr_at hok, Option.bind_some]
  rw [if_neg (by simpa using h0)]
  clear e
  induction h with
  | nil => simp [getByNameLoop, hx]
  | @cons y p l ps hy _ ih =>
    obtain ⟨b, e, hok', t, rfl⟩ := hy.name
    have hp := hno p (by simp)
    have ih := ih fun p hp => hno p (by simp [hp])
    simp only [List.cons_append, getByNameLoop, e, Option.bind_eq_bind, Option.bind_some, cstr_at hok']
    by_cases hl : List.length n = p.gname.length
    · rw [if_pos hl]
      obtain ⟨k, h1, h2⟩ := name_compare hok' hok hl.symm t q
      rw [h1, Option.bind_some, if_neg fun hk => hp (h2.1 hk), ih]
    · rw [if_neg hl, ih]

/-- **C131** is false for a name that is there: after `osip_to_set_tag` the tag is still the old one. -/
theorem c131_violated :
    ((osip_uri_param_add [] (some (Str.buf "tag".toList)) (some (Str.buf "1".toList))).bind fun r =>
      (osip_uri_param_add r.2 (some (Str.buf "tag".toList)) (some (Str.buf "2".toList))).bind fun r =>
        (osip_uri_param_get_byname r.2 (some (Str.buf "tag".toList))).map fun x => (x.1, x.2.map (·.gvalue))) =
      some (0, some (some (Str.buf "1".toList))) ∧
    ((osip_uri_param_add [] none (some (Str.buf "1".toList))).bind fun r =>
      (osip_uri_param_get_byname r.2 (some (Str.buf "tag".toList))).map (·.1)) = none := by
  decide +kernel

/-! ## Examples -/

/-- Blanks around the name and the value are dropped, and the letters of the name do not matter. -/
example :
    ((osip_uri_param_add [⟨some (Str.buf "lr".toList), none⟩] (some (Str.buf " Tag ".toList)) (some (Str.buf "\tx y ".toList))).bind fun r =>
      (osip_uri_param_get_byname r.2 (some (Str.buf "TAG".toList))).map fun x => (x.1, x.2.bind fun p => p.gvalue.map Buf.str)) =
      some (0, some "x y".toList) := by
  decide +kernel

example : HoldsParams [⟨some (Str.buf "lr".toList), none⟩, ⟨some (Str.buf "tag".toList), some (Str.buf "x".toList)⟩]
    [⟨"lr".toList, none⟩, ⟨"tag".toList, some "x".toList⟩] :=
  .cons ⟨⟨_, rfl, by decide, [], rfl⟩, .inl ⟨rfl, rfl⟩⟩ (.cons ⟨⟨_, rfl, by decide, [], rfl⟩, .inr ⟨_, _, rfl, rfl, by decide, [], rfl⟩⟩ .nil)

end Osip
