import Verif.Parse.PropsWire

/-!
# C126: how headers are spelled, ordered and grouped
-/

set_option autoImplicit false

namespace Osip

/-! ## Specification -/

/-- The structure that a header of this name is kept in, `none` for the list of other headers. Names are compared without regard
to case. -/
def kindOf (a : Str) : Option Setter :=
  ((supported ++ supportedFull).find? fun x => x.1.toList = lower a).map (·.2.1)

/-- Two spellings of a name: they differ in case, or one is the compact form of the other. -/
def SameName (a b : Str) : Prop := lower a = lower b ∨ ∃ k, kindOf a = some k ∧ kindOf b = some k

/-- Header lines, as their names and values without the blanks around them (no value: nothing follows the colon), that say the
same according to RFC 3261, 7.3.1 and 7.3.3. -/
inductive Alike : List (Str × Option Str) → List (Str × Option Str) → Prop
  | refl (l : List (Str × Option Str)) : Alike l l
  | symm {l l' : List (Str × Option Str)} : Alike l l' → Alike l' l
  | trans {l l' l'' : List (Str × Option Str)} : Alike l l' → Alike l' l'' → Alike l l''
  /-- Another spelling of a name. -/
  | spelled {a b : Str} {v : Option Str} (p q : List (Str × Option Str)) : SameName a b → Alike (p ++ (a, v) :: q) (p ++ (b, v) :: q)
  /-- The order of lines of different headers. All headers without a structure of their own are one here. -/
  | swapped {a b : Str} {v w : Option Str} (p q : List (Str × Option Str)) : kindOf a ≠ kindOf b →
      Alike (p ++ (a, v) :: (b, w) :: q) (p ++ (b, w) :: (a, v) :: q)
  /-- Several values in one line or in several lines. -/
  | grouped {a : Str} {es : List Str} (p q : List (Str × Option Str)) : lower a ∉ singleValued.map String.toList → 2 ≤ es.length →
      (∀ e ∈ es, Element e ∧ e.Ok ∧ e ≠ []) →
      Alike (p ++ (a, some (commaJoin es)) :: q) (p ++ (es.map fun e => (a, some (trim e))) ++ q)

/-! ## Splitting does not depend on what happens to the values -/

theorem split_store (s : Str) : ∀ {a : Str} (iq iu : Bool), a.Ok → s.Ok → ∀ r : List Char,
    ∃ vs, ∀ (set : List Str → Str → Int) (acc : List Str),
      splitLoop set (a ++ (s ++ NUL :: r)) (s ++ NUL :: r) iq iu acc = some (storeAll set acc vs) := by
  induction s with
  | nil =>
    intro a iq iu ha hs r
    have h1 : NUL ≠ '"' := by decide
    have h2 : NUL ≠ '<' := by decide
    have h3 : NUL ≠ '>' := by decide
    refine ⟨([a].filter (· ≠ [])).map trim, fun set acc => ?_⟩
    rw [← split_end (set := set) ha r acc]
    simp only [List.nil_append, splitLoop, if_neg h1, if_neg h2, if_neg h3, true_or, if_true]
  | cons c s ih =>
    intro a iq iu ha hs r
    obtain ⟨hc, hs'⟩ := ok_cons.1 hs
    have e : a ++ (c :: s ++ NUL :: r) = (a ++ [c]) ++ (s ++ NUL :: r) := by simp
    have hac : Str.Ok (a ++ [c]) := ok_append ha (ok_cons.2 ⟨hc, by simp [Str.Ok]⟩)
    have hstay : ∀ iq iu, ∃ vs, ∀ (set : List Str → Str → Int) (acc : List Str),
        splitLoop set (a ++ (c :: s ++ NUL :: r)) (s ++ NUL :: r) iq iu acc = some (storeAll set acc vs) := by
      intro iq iu; rw [e]; exact ih iq iu hac hs' r
    by_cases h1 : c = '"'
    · simp only [List.cons_append, splitLoop, if_pos h1]; exact hstay _ _
    · by_cases h2 : c = '<'
      · subst h2
        simp only [List.cons_append, splitLoop, if_neg h1, if_true]
        split
        · obtain ⟨b, hb⟩ := opensUri_some hs' r
          rw [hb]; exact hstay _ _
        · exact hstay _ _
      · by_cases h3 : c = '>'
        · simp only [List.cons_append, splitLoop, if_neg h1, if_neg h2, if_pos h3]; exact hstay _ _
        · by_cases h4 : c = ','
          · subst h4
            by_cases hst : (!iq && !iu) = true
            · have hiq : iq = false ∧ iu = false := by revert hst; cases iq <;> cases iu <;> simp
              obtain ⟨rfl, rfl⟩ := hiq
              obtain ⟨vs, hvs⟩ := ih (a := []) false false (by simp [Str.Ok]) hs' r
              simp only [List.nil_append] at hvs
              by_cases ha0 : a = []
              · refine ⟨vs, fun set acc => ?_⟩
                rw [split_comma ha hs', if_pos ha0, hvs]
              · refine ⟨trim a :: vs, fun set acc => ?_⟩
                rw [split_comma ha hs', if_neg ha0, storeAll]
                split
                · rfl
                · exact hvs _ _
            · simp only [List.cons_append, splitLoop, if_neg h1, if_neg h2, if_neg h3, or_true, if_true, if_neg hc, hst,
                Bool.false_eq_true, if_false]
              exact hstay _ _
          · simp only [List.cons_append, splitLoop, if_neg h1, if_neg h2, if_neg h3, hc, h4, or_self, if_false]
            exact hstay _ _

theorem multiple_store (n : Str) {v : Str} (hv : v.Ok) (r : List Char) :
    ∃ vs, ∀ n' : Str, (n' ∈ singleValued.map String.toList ↔ n ∈ singleValued.map String.toList) →
      ∀ set : List Str → Str → Int, set_multiple_header set n' (v ++ NUL :: r) = some (storeAll set [] vs) := by
  by_cases h : ',' ∉ v ∨ n ∈ singleValued.map String.toList
  · refine ⟨[v], fun n' hn set => ?_⟩
    rw [c46_single hv (by rw [hn]; exact h)]
    simp only [storeAll]
    split
    · rfl
    · next h => simp only [ne_eq, Decidable.not_not] at h; rw [h]
  · have h' : ',' ∈ v ∧ n ∉ singleValued.map String.toList :=
      ⟨Decidable.byContradiction fun k => h (.inl k), fun k => h (.inr k)⟩
    obtain ⟨vs, hvs⟩ := split_store v (a := []) false false (by simp [Str.Ok]) hv r
    refine ⟨vs, fun n' hn set => ?_⟩
    have h2 : n' ∉ singleHeaders.map String.toList := by rw [singleValued_iff, hn]; exact h'.2
    simp only [List.nil_append] at hvs
    rcases cstrchr_cases hv (c := ',') (by decide) r with ⟨hno, _⟩ | ⟨a, b, e, _, hc⟩
    · exact absurd h'.1 hno
    · simp only [set_multiple_header, hc, Option.bind_eq_bind, Option.bind_some, h2, Option.isNone_some, Bool.false_eq_true,
        or_self, if_false, hvs]

/-! ## Accepted lines -/

/-- The message if the code is 0. -/
def accepted (x : Option (Int × SipMessage)) : Option SipMessage := x.bind fun y => if y.1 = 0 then some y.2 else none

theorem setValues_append (set : SipMessage → Option Str → Option (Int × SipMessage)) (l l' : List Str) (m : SipMessage) :
    setValues set m (l ++ l') = (setValues set m l).bind fun m => setValues set m l' := by
  induction l generalizing m with
  | nil => rfl
  | cons v l ih =>
    simp only [List.cons_append, setValues, Option.bind_eq_bind]
    cases set m (some v) with
    | none => rfl
    | some x => simp only [Option.bind_some, ih]

theorem values_fold (set : SipMessage → Option Str → Option (Int × SipMessage)) (m0 : SipMessage) (vs : List Str) :
    ∀ (acc : List Str) (m1 : SipMessage), setValues set m0 acc.reverse = some m1 →
      accepted ((setValues set m0 (storeAll (valueCode set m0) acc vs).2.reverse).bind fun m => some ((storeAll (valueCode set m0) acc vs).1, m)) =
        vs.foldlM (fun m v => accepted (set m (some v))) m1 := by
  induction vs with
  | nil => intro acc m1 h; simp [storeAll, h, accepted]
  | cons v vs ih =>
    intro acc m1 h
    have hv : setValues set m0 (v :: acc).reverse = (set m1 (some v)).map (·.2) := by
      rw [List.reverse_cons, setValues_append, h]
      simp only [Option.bind_some, setValues, Option.bind_eq_bind]
      cases set m1 (some v) <;> rfl
    have hc : valueCode set m0 acc v = ((set m1 (some v)).map (·.1)).getD OSIP_SYNTAXERROR := by
      simp only [valueCode, h, Option.bind_some]
      cases set m1 (some v) <;> rfl
    simp only [storeAll, List.foldlM_cons, Option.bind_eq_bind]
    rw [hc]
    cases hs : set m1 (some v) with
    | none =>
      rw [hs] at hv
      simp only [Option.map_none, Option.getD_none, show OSIP_SYNTAXERROR ≠ 0 by decide, ne_eq, not_false_eq_true, if_true, hv, accepted, Option.bind_none]
    | some x =>
      obtain ⟨i, m2⟩ := x
      rw [hs] at hv
      simp only [Option.map_some, Option.getD_some]
      by_cases hi : i = 0
      · subst hi
        simp only [ne_eq, not_true_eq_false, if_false]
        rw [ih (v :: acc) m2 hv]
        rfl
      · simp only [ne_eq, hi, not_false_eq_true, if_true, hv, Option.map_some, Option.bind_some, accepted, if_false, Option.bind_none]

section Lines

variable (sscanf : Str → Option Nat) (signed : Bool)

/-- What one value does to the message. -/
def setOne (n : Str) (m : SipMessage) (v : Option Str) : Option SipMessage :=
  accepted (message_set__header sscanf signed (theTable signed false) m n v)

/-- What one line does to the message. -/
def setLine (m : SipMessage) (q : Str × Option Str) : Option SipMessage :=
  accepted (message_set_multiple sscanf signed (theTable signed false) m q.1 q.2)

theorem line_none {a : Str} (ha : a.Ok) (m : SipMessage) : setLine sscanf signed m (a, none) = setOne sscanf signed (lower a) m none := by
  unfold setLine setOne message_set_multiple
  have hl := lower_ok ha
  rw [Str.buf, c57_tolower ha]
  simp only [Option.bind_eq_bind, Option.bind_some, cstr_at hl]

theorem line_values (n : Str) {v : Str} (hv : v.Ok) :
    ∃ vs : List Str, ∀ a : Str, a.Ok → (lower a ∈ singleValued.map String.toList ↔ n ∈ singleValued.map String.toList) → ∀ m,
      setLine sscanf signed m (a, some v) = vs.foldlM (fun m v => setOne sscanf signed (lower a) m (some v)) m := by
  obtain ⟨vs, hvs⟩ := multiple_store n hv []
  refine ⟨vs, fun a ha hn m => ?_⟩
  unfold setLine message_set_multiple
  have hl := lower_ok ha
  rw [Str.buf, c57_tolower ha]
  simp only [Option.bind_eq_bind, Option.bind_some, cstr_at hl, Str.buf, hvs _ hn]
  exact values_fold _ m vs [] m rfl

theorem apply_lines (l : List (Str × Option Str)) (m : SipMessage) :
    accepted (applyAll (message_set_multiple sscanf signed (theTable signed false)) m l) = l.foldlM (setLine sscanf signed) m := by
  induction l generalizing m with
  | nil => rfl
  | cons q l ih =>
    obtain ⟨a, b⟩ := q
    simp only [applyAll, List.foldlM_cons, Option.bind_eq_bind, setLine]
    cases message_set_multiple sscanf signed (theTable signed false) m a b with
    | none => rfl
    | some x =>
      obtain ⟨i, m'⟩ := x
      by_cases hi : i = 0
      · subst hi; simp only [ne_eq, not_true_eq_false, if_false, ih]; rfl
      · simp only [ne_eq, hi, not_false_eq_true, if_true]; simp [accepted, hi]; decide

/-! ## Each header has its own place -/

theorem kind_supported {a : Str} {k : Setter} (h : kindOf a = some k) : ∃ req, Supported false (lower a) k req := by
  simp only [kindOf, Option.map_eq_some_iff] at h
  obtain ⟨⟨n, k', req⟩, h1, rfl⟩ := h
  have h2 := List.mem_of_find?_eq_some h1
  have h3 := List.find?_some h1
  simp only [decide_eq_true_eq] at h3
  refine ⟨req, n, h3, ?_⟩
  rcases List.mem_append.1 h2 with h | h
  · exact .inl h
  · exact .inr ⟨rfl, h⟩

theorem kind_unknown {a : Str} (h : kindOf a = none) (k : Setter) (req : Bool) : ¬ Supported false (lower a) k req := by
  simp only [kindOf, Option.map_eq_none_iff, List.find?_eq_none, decide_eq_true_eq] at h
  rintro ⟨n, hn, h1 | ⟨-, h1⟩⟩
  · exact h _ (List.mem_append_left _ h1) hn
  · exact h _ (List.mem_append_right _ h1) hn

theorem kind_entry {a : Str} {k : Setter} (h : kindOf a = some k) :
    ∃ i e, is_known_header signed false (theTable signed false) (lower a) = some (some i) ∧ (pconfig false)[i]? = some e ∧ e.setheader = k ∧
      e.hname = lower a := by
  obtain ⟨req, hs⟩ := kind_supported h
  obtain ⟨e, he, h1, h2, -⟩ := (pconfig_supported false).2 _ _ _ hs
  obtain ⟨i, hi, rfl⟩ := List.getElem_of_mem he
  obtain ⟨o, ho, h3⟩ := is_known_iff signed false (lower a)
  have := (h3 i).2 ⟨_, List.getElem?_eq_getElem hi, h1⟩
  subst this
  exact ⟨i, _, ho, List.getElem?_eq_getElem hi, h2, h1⟩

theorem kind_none {a : Str} (h : kindOf a = none) : is_known_header signed false (theTable signed false) (lower a) = some none := by
  obtain ⟨o, ho, h3⟩ := is_known_iff signed false (lower a)
  cases o with
  | none => exact ho
  | some i =>
    obtain ⟨e, h1, h2⟩ := (h3 i).1 rfl
    have := (pconfig_supported false).1 e (List.mem_of_getElem? h1)
    rw [h2] at this
    exact absurd this (kind_unknown h _ _)

theorem entries_alike : ∀ e ∈ pconfig false, ∀ f ∈ pconfig false, e.setheader = f.setheader →
    e.ignored_when_invalid = f.ignored_when_invalid ∧
      (e.hname ∈ singleValued.map String.toList ↔ f.hname ∈ singleValued.map String.toList) := by decide +kernel

theorem same_one {a b : Str} (h : SameName a b) : setOne sscanf signed (lower a) = setOne sscanf signed (lower b) := by
  rcases h with h | ⟨k, ha, hb⟩
  · rw [h]
  · obtain ⟨i, e, h1, h2, h3, -⟩ := kind_entry signed ha
    obtain ⟨j, f, g1, g2, g3, -⟩ := kind_entry signed hb
    have := (entries_alike e (List.mem_of_getElem? h2) f (List.mem_of_getElem? g2) (h3.trans g3.symm)).1
    funext m v
    simp only [setOne, message_set__header, h1, h2, g1, g2, h3, g3, this, Option.bind_eq_bind, Option.bind_some]

theorem same_single {a b : Str} (h : SameName a b) :
    lower a ∈ singleValued.map String.toList ↔ lower b ∈ singleValued.map String.toList := by
  rcases h with h | ⟨k, ha, hb⟩
  · rw [h]
  · obtain ⟨i, e, h1, h2, h3, h4⟩ := kind_entry true ha
    obtain ⟨j, f, g1, g2, g3, g4⟩ := kind_entry true hb
    have := (entries_alike e (List.mem_of_getElem? h2) f (List.mem_of_getElem? g2) (h3.trans g3.symm)).2
    rwa [h4, g4] at this

/-- A step which reads and writes only the place of the headers of the kind. -/
def ActsOn : Option Setter → (SipMessage → Option SipMessage) → Prop
  | some k, F => ∃ f : List HeaderVal → Option (List HeaderVal), ∀ m, m.cached = none →
      F m = (f (m.hdr k)).map fun l => { m with hdr := fun j => if j = k then l else m.hdr j }
  | none, F => ∃ f : List Header → Option (List Header), ∀ m, m.cached = none → F m = (f m.headers).map fun l => { m with headers := l }

theorem acts_cached {k : Option Setter} {F : SipMessage → Option SipMessage} (h : ActsOn k F) {m m' : SipMessage} (hm : m.cached = none)
    (h' : F m = some m') : m'.cached = none := by
  cases k with
  | none =>
    obtain ⟨f, hf⟩ := h
    rw [hf m hm] at h'
    obtain ⟨l, -, rfl⟩ := Option.map_eq_some_iff.1 h'
    exact hm
  | some k =>
    obtain ⟨f, hf⟩ := h
    rw [hf m hm] at h'
    obtain ⟨l, -, rfl⟩ := Option.map_eq_some_iff.1 h'
    exact hm

theorem acts_id (k : Option Setter) : ActsOn k some := by
  cases k with
  | none => exact ⟨some, fun m _ => rfl⟩
  | some k =>
    refine ⟨some, fun m _ => ?_⟩
    simp only [Option.map_some]
    congr 1
    have : (fun j => if j = k then m.hdr k else m.hdr j) = m.hdr := by funext j; split <;> simp_all
    rw [this]

theorem acts_comp {k : Option Setter} {F G : SipMessage → Option SipMessage} (hF : ActsOn k F) (hG : ActsOn k G) :
    ActsOn k fun m => (F m).bind G := by
  cases k with
  | none =>
    obtain ⟨f, hf⟩ := hF
    obtain ⟨g, hg⟩ := hG
    refine ⟨fun l => (f l).bind g, fun m hm => ?_⟩
    simp only [hf m hm]
    cases f m.headers with
    | none => rfl
    | some l => simp only [Option.map_some, Option.bind_some]; rw [hg _ (by exact hm)]
  | some k =>
    obtain ⟨f, hf⟩ := hF
    obtain ⟨g, hg⟩ := hG
    refine ⟨fun l => (f l).bind g, fun m hm => ?_⟩
    simp only [hf m hm]
    cases f (m.hdr k) with
    | none => rfl
    | some l =>
      simp only [Option.map_some, Option.bind_some]
      rw [hg _ (by exact hm)]
      simp only [if_true]
      congr 1
      funext l'
      congr 1
      funext j
      split <;> simp_all

theorem acts_commute {k k' : Option Setter} (hk : k ≠ k') {F G : SipMessage → Option SipMessage} (hF : ActsOn k F) (hG : ActsOn k' G)
    {m : SipMessage} (hm : m.cached = none) : (F m).bind G = (G m).bind F := by
  cases k with
  | none =>
    cases k' with
    | none => exact absurd rfl hk
    | some k' =>
      obtain ⟨f, hf⟩ := hF
      obtain ⟨g, hg⟩ := hG
      rw [hf m hm, hg m hm]
      cases hx : f m.headers with
      | none =>
        cases g (m.hdr k') with
        | none => rfl
        | some y => simp only [Option.map_none, Option.map_some, Option.bind_none, Option.bind_some]; rw [hf _ (by exact hm), hx]; rfl
      | some x =>
        simp only [Option.map_some, Option.bind_some]
        rw [hg _ (by exact hm)]
        cases hy : g (m.hdr k') with
        | none => rfl
        | some y => simp only [Option.map_some, Option.bind_some]; rw [hf _ (by exact hm), hx]; rfl
  | some k =>
    cases k' with
    | none =>
      obtain ⟨f, hf⟩ := hF
      obtain ⟨g, hg⟩ := hG
      rw [hf m hm, hg m hm]
      cases hx : f (m.hdr k) with
      | none =>
        cases g m.headers with
        | none => rfl
        | some y => simp only [Option.map_none, Option.map_some, Option.bind_none, Option.bind_some]; rw [hf _ (by exact hm), hx]; rfl
      | some x =>
        simp only [Option.map_some, Option.bind_some]
        rw [hg _ (by exact hm)]
        cases hy : g m.headers with
        | none => simp [hy]
        | some y => simp only [Option.map_some, Option.bind_some]; rw [hf _ (by exact hm), hx]; simp [hy]
    | some k' =>
      have hne : k' ≠ k := fun e => hk (by rw [e])
      obtain ⟨f, hf⟩ := hF
      obtain ⟨g, hg⟩ := hG
      rw [hf m hm, hg m hm]
      cases hx : f (m.hdr k) with
      | none =>
        cases g (m.hdr k') with
        | none => rfl
        | some y =>
          simp only [Option.map_none, Option.map_some, Option.bind_none, Option.bind_some]
          rw [hf _ (by exact hm)]
          simp [Ne.symm hne, hx]
      | some x =>
        simp only [Option.map_some, Option.bind_some]
        rw [hg _ (by exact hm)]
        cases hy : g (m.hdr k') with
        | none => simp [hne, hy]
        | some y =>
          simp only [Option.map_some, Option.bind_some]
          rw [hf _ (by exact hm)]
          simp only [hne, Ne.symm hne, if_false, hx, hy, Option.map_some]
          congr 2
          funext j
          split <;> simp_all

/-- The message with other headers of one kind. -/
def SipMessage.put (m : SipMessage) (k : Setter) (l : List HeaderVal) : SipMessage :=
  { m with hdr := fun j => if j = k then l else m.hdr j }

theorem put_same (m : SipMessage) (k : Setter) : m.put k (m.hdr k) = m := by
  have : (fun j => if j = k then m.hdr k else m.hdr j) = m.hdr := by funext j; split <;> simp_all
  simp only [SipMessage.put, this]

theorem setter_local (k : Setter) (v : Option Str) (m : SipMessage) (hm : m.cached = none) :
    callSetter sscanf k m v = (callSetter sscanf k { hdr := fun _ => m.hdr k } v).map fun y => (y.1, m.put k (y.2.hdr k)) := by
  have hc : { m with cached := none } = m := by rw [← hm]
  have ha : ∀ x, m.add k x = m.put k (m.hdr k ++ [x]) := by
    intro x; simp only [SipMessage.add, SipMessage.put, hm]
  simp only [callSetter, Option.bind_eq_bind, hc]
  split
  · simp [put_same]
  · split
    · simp [put_same]
    · split
      · split
        · simp [put_same]
        · cases parseHeader sscanf k (v.map Str.buf) with
          | none => rfl
          | some y =>
            simp only [Option.bind_some]
            split
            · simp [put_same]
            · rw [ha]; simp [SipMessage.add]
      · cases parseHeader sscanf k (v.map Str.buf) with
        | none => rfl
        | some y =>
          simp only [Option.bind_some]
          split
          · simp [put_same]
          · rw [ha]; simp [SipMessage.add]

theorem acts_one (a : Str) (v : Option Str) : ActsOn (kindOf a) fun m => setOne sscanf signed (lower a) m v := by
  cases h : kindOf a with
  | none =>
    have h1 := kind_none signed h
    refine ⟨fun l => (osip_message_set_header (some (Str.buf (lower a))) (v.map Str.buf)).bind fun y =>
      if y.1 ≠ 0 then some l else y.2.map fun x => l ++ [x], fun m hm => ?_⟩
    simp only [setOne, message_set__header, h1, Option.bind_eq_bind, Option.bind_some]
    cases osip_message_set_header (some (Str.buf (lower a))) (v.map Str.buf) with
    | none => rfl
    | some y =>
      obtain ⟨i, x⟩ := y
      by_cases hi : i = 0
      · subst hi
        cases x <;> simp [accepted, hm, OSIP_SUCCESS]
      · simp [hi, accepted, OSIP_SUCCESS]
  | some k =>
    obtain ⟨i, e, h1, h2, h3, -⟩ := kind_entry signed h
    refine ⟨fun l => (callSetter sscanf k { hdr := fun _ => l } v).bind fun y =>
      if (if e.ignored_when_invalid then 0 else y.1) = 0 then some (y.2.hdr k) else none, fun m hm => ?_⟩
    simp only [setOne, message_set__header, h1, h2, h3, Option.bind_eq_bind, Option.bind_some, setter_local sscanf k v m hm]
    cases callSetter sscanf k { hdr := fun _ => m.hdr k } v with
    | none => rfl
    | some y =>
      simp only [Option.map_some, Option.bind_some, accepted]
      by_cases hi : (if e.ignored_when_invalid then 0 else y.1) = 0
      · simp only [pure, Option.bind_some, hi, if_true]; rfl
      · simp only [pure, Option.bind_some, hi, if_false]; rfl

theorem acts_values (a : Str) (vs : List Str) :
    ActsOn (kindOf a) fun m => vs.foldlM (fun m v => setOne sscanf signed (lower a) m (some v)) m := by
  induction vs with
  | nil => exact acts_id _
  | cons v vs ih => exact acts_comp (acts_one sscanf signed a (some v)) ih

theorem acts_line {a : Str} (ha : a.Ok) {v : Option Str} (hv : ∀ s ∈ v, s.Ok) :
    ActsOn (kindOf a) fun m => setLine sscanf signed m (a, v) := by
  cases v with
  | none =>
    have : (fun m => setLine sscanf signed m (a, none)) = fun m => setOne sscanf signed (lower a) m none := by
      funext m; exact line_none sscanf signed ha m
    rw [this]; exact acts_one _ _ _ _
  | some v =>
    obtain ⟨vs, h⟩ := line_values sscanf signed (lower a) (hv v rfl)
    have : (fun m => setLine sscanf signed m (a, some v)) = fun m => vs.foldlM (fun m v => setOne sscanf signed (lower a) m (some v)) m := by
      funext m; exact h a ha Iff.rfl m
    rw [this]; exact acts_values _ _ _ _

theorem same_line {a b : Str} (ha : a.Ok) (hb : b.Ok) (h : SameName a b) {v : Option Str} (hv : ∀ s ∈ v, s.Ok) (m : SipMessage) :
    setLine sscanf signed m (a, v) = setLine sscanf signed m (b, v) := by
  cases v with
  | none => rw [line_none _ _ ha, line_none _ _ hb, same_one _ _ h]
  | some v =>
    obtain ⟨vs, h'⟩ := line_values sscanf signed (lower a) (hv v rfl)
    rw [h' a ha Iff.rfl, h' b hb (same_single h).symm, same_one _ _ h]

/-! ## Values in one line and in several lines -/

theorem blank_piece {c : Char} (hc : isBlank c = true) : c ≠ ',' ∧ c ≠ '"' ∧ c ≠ '<' ∧ c ≠ '>' := by
  refine ⟨?_, ?_, ?_, ?_⟩ <;> (rintro rfl; revert hc; decide)

theorem element_tail {c : Char} {e : Str} (hc : isBlank c = true) (h : Element (c :: e)) : Element e := by
  generalize hx : c :: e = x at h
  cases h with
  | nil => cases hx
  | @cons p e' hp he =>
    have hb := blank_piece hc
    cases hp with
    | char h1 h2 h3 h4 => cases hx; exact he
    | quoted hq => simp at hx; exact absurd hx.1 hb.2.1
    | uri h1 h2 h3 h4 => simp at hx; exact absurd hx.1 hb.2.2.1

theorem element_drop (e : Str) (h : Element e) : Element (e.dropWhile isBlank) := by
  induction e with
  | nil => exact h
  | cons c e ih =>
    by_cases hc : isBlank c = true
    · rw [List.dropWhile_cons_of_pos hc]; exact ih (element_tail hc h)
    · rw [List.dropWhile_cons_of_neg hc]; exact h

theorem element_init {c : Char} (hc : isBlank c = true) {x : Str} (h : Element x) : ∀ e, x = e ++ [c] → Element e := by
  have hb := blank_piece hc
  induction h with
  | nil => intro e he; simp at he
  | @cons p x hp hx ih =>
    intro e he
    cases hl : x.reverse with
    | nil =>
      have : x = [] := by simpa using hl
      subst this
      rw [List.append_nil] at he
      have hlast : p.getLast? = some c := by rw [he]; simp
      cases hp with
      | char h1 h2 h3 h4 =>
        cases e with
        | nil => exact .nil
        | cons d e => simp at he
      | quoted hq => simp [List.getLast?_cons] at hlast; exact absurd hlast.symm hb.2.1
      | uri h1 h2 h3 h4 => simp [List.getLast?_cons] at hlast; exact absurd hlast.symm hb.2.2.2
    | cons d y =>
      have hx' : x = y.reverse ++ [d] := by
        have := congrArg List.reverse hl; simpa using this
      rw [hx', ← List.append_assoc] at he
      obtain ⟨h1, h2⟩ := List.append_inj' he rfl
      cases h2
      rw [← h1]
      exact .cons hp (ih _ hx')

theorem element_trim {e : Str} (h : Element e) : Element (trim e) := by
  rw [trim_eq]
  have h1 := element_drop e h
  generalize e.dropWhile isBlank = x at h1
  have : ∀ y : Str, Element y.reverse → Element (y.dropWhile isBlank).reverse := by
    intro y
    induction y with
    | nil => exact id
    | cons c y ih =>
      intro h
      by_cases hc : isBlank c = true
      · rw [List.dropWhile_cons_of_pos hc]
        exact ih (element_init hc h _ (by simp))
      · rw [List.dropWhile_cons_of_neg hc]; exact h
  exact this x.reverse (by simpa using h1)

/-- A value of its own line. -/
theorem one_element {n : Str} (hn : n ∉ singleValued.map String.toList) {e : Str} (he : Element e) (hok : e.Ok) (set : List Str → Str → Int) :
    set_multiple_header set n (Str.buf (trim e)) = some (storeAll set [] [trim e]) := by
  have ht := element_trim he
  have hto := trim_ok hok
  have hone : ∀ v : Str, storeAll set [] [v] = (set [] v, [v]) := by
    intro v
    simp only [storeAll]
    split
    · rfl
    · next h => simp only [ne_eq, Decidable.not_not] at h; rw [h]
  by_cases hc : ',' ∈ trim e
  · have hne : trim e ≠ [] := by intro h; rw [h] at hc; simp at hc
    rcases cstrchr_cases hto (c := ',') (by decide) [] with ⟨hno, _⟩ | ⟨a, b, _, _, hx⟩
    · exact absurd hc hno
    · rw [← singleValued_iff] at hn
      simp only [set_multiple_header, Str.buf, hx, Option.bind_eq_bind, Option.bind_some, hn, Option.isNone_some, Bool.false_eq_true,
        or_self, if_false]
      have := split_all (set := set) (es := [trim e]) (by simp) (by simpa using ⟨ht, hto⟩) [] []
      simp only [commaJoin] at this
      rw [this]
      have h2 : trim (trim e) = trim e := trim_trim e
      simp [hne, h2]
  · rw [Str.buf, c46_single hto (.inl hc), hone]

theorem lines_of_values {a : Str} (ha : a.Ok) (hs : lower a ∉ singleValued.map String.toList) {es : List Str} (hl : 2 ≤ es.length)
    (hes : ∀ e ∈ es, Element e ∧ e.Ok ∧ e ≠ []) (m : SipMessage) :
    setLine sscanf signed m (a, some (commaJoin es)) = (es.map fun e => (a, some (trim e))).foldlM (setLine sscanf signed) m := by
  have hlo := lower_ok ha
  have h1 : setLine sscanf signed m (a, some (commaJoin es)) =
      (es.map trim).foldlM (fun m v => setOne sscanf signed (lower a) m (some v)) m := by
    unfold setLine message_set_multiple
    rw [Str.buf, c57_tolower ha]
    have hf : es.filter (· ≠ []) = es := List.filter_eq_self.2 fun e he => by simp [(hes e he).2.2]
    simp only [Option.bind_eq_bind, Option.bind_some, cstr_at hlo, Str.buf, c46_split_partial hs hl (fun e he => ⟨(hes e he).1, (hes e he).2.1⟩), hf]
    exact values_fold _ m _ [] m rfl
  rw [h1]
  clear h1 hl
  induction es generalizing m with
  | nil => rfl
  | cons e es ih =>
    obtain ⟨g1, g2, -⟩ := hes e (by simp)
    have h2 : setLine sscanf signed m (a, some (trim e)) = setOne sscanf signed (lower a) m (some (trim e)) := by
      unfold setLine message_set_multiple
      rw [Str.buf, c57_tolower ha]
      simp only [Option.bind_eq_bind, Option.bind_some, cstr_at hlo, one_element hs g1 g2]
      have := values_fold (fun m v => message_set__header sscanf signed (theTable signed false) m (lower a) v) m [trim e] [] m rfl
      have hb : ∀ x : Option SipMessage, x.bind some = x := by intro x; cases x <;> rfl
      rw [List.foldlM_cons] at this
      simp only [List.foldlM_nil, Option.bind_eq_bind, pure, hb] at this
      exact this
    simp only [List.map_cons, List.foldlM_cons, h2, Option.bind_eq_bind]
    cases setOne sscanf signed (lower a) m (some (trim e)) with
    | none => rfl
    | some m' => exact ih (fun x hx => hes x (by simp [hx])) m'

theorem fold_cached {l : List (Str × Option Str)} (hl : ∀ q ∈ l, q.1.Ok ∧ ∀ s ∈ q.2, s.Ok) {m m' : SipMessage} (hm : m.cached = none)
    (h : l.foldlM (setLine sscanf signed) m = some m') : m'.cached = none := by
  induction l generalizing m with
  | nil => cases h; exact hm
  | cons q l ih =>
    rw [List.foldlM_cons, Option.bind_eq_bind, Option.bind_eq_some_iff] at h
    obtain ⟨m1, h1, h2⟩ := h
    obtain ⟨g1, g2⟩ := hl q (by simp)
    exact ih (fun x hx => hl x (by simp [hx])) (acts_cached (acts_line sscanf signed g1 g2) hm h1) h2

/-- Lines without terminators in them. -/
def LinesOk (l : List (Str × Option Str)) : Prop := ∀ q ∈ l, q.1.Ok ∧ ∀ s ∈ q.2, s.Ok

theorem linesOk_append {l l' : List (Str × Option Str)} : LinesOk (l ++ l') ↔ LinesOk l ∧ LinesOk l' := by
  simp only [LinesOk, List.mem_append]
  exact ⟨fun h => ⟨fun q hq => h q (.inl hq), fun q hq => h q (.inr hq)⟩, fun h q hq => hq.elim (h.1 q) (h.2 q)⟩

theorem linesOk_cons {q : Str × Option Str} {l : List (Str × Option Str)} : LinesOk (q :: l) ↔ (q.1.Ok ∧ ∀ s ∈ q.2, s.Ok) ∧ LinesOk l := by
  simp [LinesOk]

theorem of_lower_ok {n : Str} (h : Str.Ok (lower n)) : n.Ok := by
  intro hm
  refine h (List.mem_map.2 ⟨NUL, hm, ?_⟩)
  decide

theorem same_ok {a b : Str} (h : SameName a b) : a.Ok ↔ b.Ok := by
  have hk : ∀ e ∈ pconfig false, Str.Ok e.hname := by decide +kernel
  have : ∀ {a k}, kindOf a = some k → a.Ok := by
    intro a k h
    obtain ⟨i, e, -, h2, -, h4⟩ := kind_entry true h
    exact of_lower_ok (h4 ▸ hk e (List.mem_of_getElem? h2))
  rcases h with h | ⟨k, ha, hb⟩
  · exact ⟨fun ha => of_lower_ok (h ▸ lower_ok ha), fun hb => of_lower_ok (h.symm ▸ lower_ok hb)⟩
  · exact ⟨fun _ => this hb, fun _ => this ha⟩

theorem join_ok {es : List Str} (h : ∀ e ∈ es, e.Ok) : Str.Ok (commaJoin es) := by
  induction es with
  | nil => simp [commaJoin, Str.Ok]
  | cons a l ih =>
    cases l with
    | nil => exact h a (by simp)
    | cons b l => exact ok_append (h a (by simp)) (ok_cons.2 ⟨by decide, ih fun x hx => h x (by simp [hx])⟩)

theorem alike_ok {l l' : List (Str × Option Str)} (h : Alike l l') : LinesOk l ↔ LinesOk l' := by
  induction h with
  | refl => rfl
  | symm _ ih => exact ih.symm
  | trans _ _ ih1 ih2 => exact ih1.trans ih2
  | spelled p q h => simp only [linesOk_append, linesOk_cons, same_ok h]
  | swapped p q h => simp only [linesOk_append, linesOk_cons]; grind
  | @grouped a es p q h1 h2 h3 =>
    have g1 : Str.Ok (commaJoin es) := join_ok fun e he => (h3 e he).2.1
    have g2 : LinesOk (es.map fun e => (a, some (trim e))) ↔ a.Ok := by
      simp only [LinesOk, List.mem_map]
      constructor
      · intro h
        cases es with
        | nil => simp at h2
        | cons e es => exact (h _ ⟨e, by simp, rfl⟩).1
      · rintro ha _ ⟨e, he, rfl⟩
        refine ⟨ha, fun s hs => ?_⟩
        cases hs
        exact trim_ok (h3 e he).2.1
    simp only [linesOk_append, linesOk_cons, g2]
    simp [g1, and_assoc]

theorem alike_fold {l l' : List (Str × Option Str)} (h : Alike l l') (hl : LinesOk l) {m : SipMessage} (hm : m.cached = none) :
    l.foldlM (setLine sscanf signed) m = l'.foldlM (setLine sscanf signed) m := by
  have hp : ∀ {p x y : List (Str × Option Str)}, LinesOk p →
      (∀ m, m.cached = none → x.foldlM (setLine sscanf signed) m = y.foldlM (setLine sscanf signed) m) →
      (p ++ x).foldlM (setLine sscanf signed) m = (p ++ y).foldlM (setLine sscanf signed) m := by
    intro p x y hpo h
    simp only [List.foldlM_append, Option.bind_eq_bind]
    cases hx : p.foldlM (setLine sscanf signed) m with
    | none => rfl
    | some m' => exact h m' (fold_cached sscanf signed hpo hm hx)
  induction h with
  | refl => rfl
  | symm h ih => exact (ih ((alike_ok h).2 hl)).symm
  | trans h _ ih1 ih2 => exact (ih1 hl).trans (ih2 ((alike_ok h).1 hl))
  | spelled p q h =>
    simp only [linesOk_append, linesOk_cons] at hl
    refine hp hl.1 fun m _ => ?_
    simp only [List.foldlM_cons, same_line sscanf signed hl.2.1.1 ((same_ok h).1 hl.2.1.1) h hl.2.1.2]
  | @swapped a b v w p q h =>
    simp only [linesOk_append, linesOk_cons] at hl
    refine hp hl.1 fun m hm => ?_
    have := acts_commute h (acts_line sscanf signed hl.2.1.1 hl.2.1.2) (acts_line sscanf signed hl.2.2.1.1 hl.2.2.1.2) hm
    simp only [List.foldlM_cons, Option.bind_eq_bind]
    rw [← Option.bind_assoc, ← Option.bind_assoc, this]
  | @grouped a es p q h1 h2 h3 =>
    simp only [linesOk_append, linesOk_cons] at hl
    rw [List.append_assoc]
    refine hp hl.1 fun m _ => ?_
    rw [List.foldlM_cons, List.foldlM_append, lines_of_values sscanf signed hl.2.1.1 h1 h2 h3]

end Lines

/-! ## Order -/

/-- Lines of which those of each header are the same in the same order are alike. -/
theorem alike_of_order (n : Nat) : ∀ {l l' : List (Str × Option Str)}, l.length = n →
    (∀ k, l.filter (fun q => kindOf q.1 = k) = l'.filter (fun q => kindOf q.1 = k)) → Alike l l' := by
  have hcons : ∀ (q : Str × Option Str) {l l' : List (Str × Option Str)}, Alike l l' → Alike (q :: l) (q :: l') := by
    intro q l l' h
    induction h with
    | refl => exact .refl _
    | symm _ ih => exact ih.symm
    | trans _ _ ih1 ih2 => exact ih1.trans ih2
    | spelled p r h => exact .spelled (q :: p) r h
    | swapped p r h => exact .swapped (q :: p) r h
    | grouped p r h1 h2 h3 => exact .grouped (q :: p) r h1 h2 h3
  have hmove : ∀ (q : Str × Option Str) (x y : List (Str × Option Str)), (∀ z ∈ x, kindOf z.1 ≠ kindOf q.1) →
      Alike (q :: (x ++ y)) (x ++ q :: y) := by
    intro q x y
    induction x with
    | nil => intro _; exact .refl _
    | cons z x ih =>
      intro h
      refine .trans ?_ (hcons z (ih fun w hw => h w (by simp [hw])))
      exact .swapped (a := q.1) (b := z.1) (v := q.2) (w := z.2) [] (x ++ y) (Ne.symm (h z (by simp)))
  induction n with
  | zero =>
    intro l l' hn h
    have : l = [] := List.eq_nil_of_length_eq_zero hn
    subst this
    cases l' with
    | nil => exact .refl _
    | cons q l' =>
      have := h (kindOf q.1)
      simp at this
  | succ n ih =>
    intro l l' hn h
    cases l with
    | nil => simp at hn
    | cons q l =>
      have hq := h (kindOf q.1)
      rw [List.filter_cons_of_pos (by simp)] at hq
      obtain ⟨x, y, e, hx, hy, hz⟩ := List.filter_eq_cons_iff.1 hq.symm
      subst e
      refine .trans (hcons q (ih (l' := x ++ y) (by simpa using hn) fun k => ?_)) (hmove q x y fun z hz => ?_)
      · have := h k
        by_cases hk : kindOf q.1 = k
        · subst hk
          rw [← hz, List.filter_append, List.filter_eq_nil_iff.2 hx, List.nil_append]
        · rw [List.filter_cons_of_neg (by simpa using hk), List.filter_append, List.filter_cons_of_neg (by simpa using hk)] at this
          rw [this, List.filter_append]
      · have := hx z hz; simpa using this

/-! ## C126 -/

theorem header_lines_ok {hs : List (Str × Str)} (h : ∀ q ∈ hs, HeaderLine q) : LinesOk (hs.map fun q => (trim q.1, lineValue q.2)) := by
  intro x hx
  obtain ⟨q, hq, rfl⟩ := List.mem_map.1 hx
  obtain ⟨g1, g2, -⟩ := h q hq
  refine ⟨trim_ok g1.ok, fun s hs => ?_⟩
  unfold lineValue at hs
  split at hs
  · cases hs
  · cases hs; exact trim_ok g2

/-- **C126**. Two messages with the same start line and body, of which the header lines say the same by RFC 3261: their names are spelled in
another case or in the compact form, lines of different headers come in another order, values of one header are in one line or in several. The
parser reads the same message from both or refuses both with a syntax error. -/
theorem c126_alike_partial {sscanf : Str → Option Nat} {sscanfD : Str → Option Int} (hd : SscanfDOk sscanfD) (signed : Bool)
    {w w' : List Char} (hw : ∀ c ∈ w, c = '\r' ∨ c = '\n') (hw' : ∀ c ∈ w', c = '\r' ∨ c = '\n') {nl : Str} {body : List Char} (hnl : Newline nl body)
    {a : Str} {d : StartLine} (ha : StartForm sscanf a d) {hs hs' : List (Str × Str)} (h : ∀ q ∈ hs, HeaderLine q) (h' : ∀ q ∈ hs', HeaderLine q)
    (hal : Alike (hs.map fun q => (trim q.1, lineValue q.2)) (hs'.map fun q => (trim q.1, lineValue q.2))) :
    osip_message_parse sscanf sscanfD signed (theTable signed false) (w ++ wire nl a hs body) =
        osip_message_parse sscanf sscanfD signed (theTable signed false) (w' ++ wire nl a hs' body) ∨
      (∃ m m', osip_message_parse sscanf sscanfD signed (theTable signed false) (w ++ wire nl a hs body) = some (OSIP_SYNTAXERROR, m) ∧
        osip_message_parse sscanf sscanfD signed (theTable signed false) (w' ++ wire nl a hs' body) = some (OSIP_SYNTAXERROR, m')) := by
  rw [c91_division hd signed hw hnl ha h, c91_division hd signed hw' hnl ha h']
  obtain ⟨i, m, e1, hi, -⟩ := apply_filled signed h (filled_empty sscanf d)
  obtain ⟨j, m', e2, hj, -⟩ := apply_filled signed h' (filled_empty sscanf d)
  have hf := alike_fold sscanf signed hal (header_lines_ok h) (m := { start := d }) rfl
  rw [← apply_lines, ← apply_lines, e1, e2] at hf
  rw [e1, e2]
  rcases hi with rfl | rfl
  · rcases hj with rfl | rfl
    · have : m = m' := by simpa [accepted, OSIP_SUCCESS] using hf
      exact .inl (by rw [this])
    · simp [accepted, OSIP_SUCCESS, OSIP_SYNTAXERROR] at hf
  · rcases hj with rfl | rfl
    · simp [accepted, OSIP_SUCCESS, OSIP_SYNTAXERROR] at hf
    · exact .inr ⟨m, m', rfl, rfl⟩

/-- **C126** for the order alone: if the lines of each header are the same in the same order, it does not matter how the lines of different
headers are mixed. -/
theorem c126_order {sscanf : Str → Option Nat} {sscanfD : Str → Option Int} (hd : SscanfDOk sscanfD) (signed : Bool)
    {nl : Str} {body : List Char} (hnl : Newline nl body) {a : Str} {d : StartLine} (ha : StartForm sscanf a d) {hs hs' : List (Str × Str)}
    (h : ∀ q ∈ hs, HeaderLine q) (h' : ∀ q ∈ hs', HeaderLine q)
    (ho : ∀ k, hs.filter (fun q => kindOf (trim q.1) = k) = hs'.filter (fun q => kindOf (trim q.1) = k)) :
    osip_message_parse sscanf sscanfD signed (theTable signed false) (wire nl a hs body) =
        osip_message_parse sscanf sscanfD signed (theTable signed false) (wire nl a hs' body) ∨
      (∃ m m', osip_message_parse sscanf sscanfD signed (theTable signed false) (wire nl a hs body) = some (OSIP_SYNTAXERROR, m) ∧
        osip_message_parse sscanf sscanfD signed (theTable signed false) (wire nl a hs' body) = some (OSIP_SYNTAXERROR, m')) := by
  have := c126_alike_partial hd signed (w := []) (w' := []) (by simp) (by simp) hnl ha h h' (alike_of_order _ rfl fun k => ?_)
  · exact this
  · rw [List.filter_map, List.filter_map]
    exact congrArg (List.map _) (ho k)

/-- **C126** is violated for compact names of headers which have no structure of their own: `s` is not read as `Subject`. -/
theorem c126_violated :
    ((osip_message_parse sscanf2 sscanfD1 true (theTable true false) "SIP/2.0 200 OK\r\nSubject: x\r\n\r\n".toList).map fun r =>
        (r.1, r.2.headers)) = some (OSIP_SUCCESS, [⟨some "subject".toList, some "x".toList⟩]) ∧
      ((osip_message_parse sscanf2 sscanfD1 true (theTable true false) "SIP/2.0 200 OK\r\ns: x\r\n\r\n".toList).map fun r =>
        (r.1, r.2.headers)) = some (OSIP_SUCCESS, [⟨some "s".toList, some "x".toList⟩]) := by decide +kernel

/-! ## Examples -/

/-- Two Vias in one line or in two, in another order and with compact names. -/
example : Alike [("Via".toList, some "SIP/2.0/UDP a, SIP/2.0/UDP b".toList), ("Subject".toList, some "x".toList), ("Call-ID".toList, some "1".toList)]
    [("i".toList, some "1".toList), ("v".toList, some "SIP/2.0/UDP a".toList), ("SUBJECT".toList, some "x".toList),
      ("VIA".toList, some "SIP/2.0/UDP b".toList)] := by
  have hel : ∀ s : Str, (∀ c ∈ s, c ≠ ',' ∧ c ≠ '"' ∧ c ≠ '<' ∧ c ≠ '>') → Element s := by
    intro s
    induction s with
    | nil => intro _; exact .nil
    | cons c s ih =>
      intro h
      have hc := h c (by simp)
      exact .cons (p := [c]) (.char hc.1 hc.2.1 hc.2.2.1 hc.2.2.2) (ih fun x hx => h x (by simp [hx]))
  have h1 := Alike.grouped (a := "Via".toList) (es := ["SIP/2.0/UDP a".toList, " SIP/2.0/UDP b".toList]) []
    [("Subject".toList, some "x".toList), ("Call-ID".toList, some "1".toList)] (by decide) (by decide) (by
      intro e he
      simp only [List.mem_cons, List.not_mem_nil, or_false] at he
      rcases he with rfl | rfl <;> exact ⟨hel _ (by decide), by decide, by decide⟩)
  refine h1.trans ?_
  have e : ([] ++ (["SIP/2.0/UDP a".toList, " SIP/2.0/UDP b".toList].map fun e => ("Via".toList, some (trim e))) ++
      [("Subject".toList, some "x".toList), ("Call-ID".toList, some "1".toList)] : List (Str × Option Str)) =
      [("Via".toList, some "SIP/2.0/UDP a".toList), ("Via".toList, some "SIP/2.0/UDP b".toList), ("Subject".toList, some "x".toList),
        ("Call-ID".toList, some "1".toList)] := by decide
  rw [e]
  refine .trans (.spelled (b := "v".toList) [] _ (.inr ⟨.via, by decide, by decide⟩)) ?_
  refine .trans (.spelled (b := "VIA".toList) [("v".toList, some "SIP/2.0/UDP a".toList)] _ (.inl (by decide))) ?_
  refine .trans (.spelled (b := "SUBJECT".toList) [("v".toList, some "SIP/2.0/UDP a".toList), ("VIA".toList, some "SIP/2.0/UDP b".toList)] _ (.inl (by decide))) ?_
  refine .trans (.spelled (b := "i".toList) [("v".toList, some "SIP/2.0/UDP a".toList), ("VIA".toList, some "SIP/2.0/UDP b".toList),
    ("SUBJECT".toList, some "x".toList)] _ (.inr ⟨.call_id, by decide, by decide⟩)) ?_
  refine alike_of_order 4 rfl fun k => ?_
  rcases k with _ | k
  · decide
  · cases k <;> decide

/-- Both are read, the second one with the Vias in the same order. -/
example : ∀ t ∈ ["SIP/2.0 200 OK\r\nVia: SIP/2.0/UDP a, SIP/2.0/UDP b\r\nSubject: x\r\nCall-ID: 1\r\n\r\n",
      "SIP/2.0 200 OK\r\ni: 1\r\nv: SIP/2.0/UDP a\r\nSUBJECT: x\r\nVIA: SIP/2.0/UDP b\r\n\r\n"],
    ((osip_message_parse sscanf2 sscanfD1 true (theTable true false) t.toList).any fun r =>
      r.1 == 0 && r.2.headers == [⟨some "subject".toList, some "x".toList⟩] &&
      (match r.2.hdr .via with
        | [.via v1, .via v2] => v1.host == some "a".toList && v2.host == some "b".toList
        | _ => false) && (r.2.hdr .call_id).length == 1) = true := by decide +kernel

/-- The order of the Vias themselves matters. -/
example : ¬ SameName "Via".toList "Route".toList ∧ kindOf "v".toList = kindOf "VIA".toList ∧ kindOf "Subject".toList = kindOf "Date".toList := by
  refine ⟨?_, by decide, by decide⟩
  rintro (h | ⟨k, h1, h2⟩)
  · revert h; decide
  · have a : kindOf "Via".toList = some .via := by decide
    have b : kindOf "Route".toList = some .route := by decide
    rw [a] at h1; rw [b] at h2
    cases h1; cases h2

end Osip
