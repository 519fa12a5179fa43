import Verif.Parse.PropsStableMessage
import Verif.Parse.PropsAlike
import Verif.Parse.Edit

/-!
# C130: headers by their position

The functions `osip_message_get_…` which give the header at a position, and which header that is for a message that was read.
-/

set_option autoImplicit false

namespace Osip

/-! ## Model -/

/-- `osip_list_get` (src/osipparser2/osip_list.c:178-200) on the elements of a list; `none` is the null pointer. -/
def elementAt {α : Type} (l : List α) (pos : Int) : Option α := if pos < 0 ∨ pos ≥ l.length then none else l[pos.toNat]?

/-- The functions which give a header by its position, code and `*dest`: src/osipparser2, osip_accept.c:53-64,
osip_accept_encoding.c:54-65, osip_accept_language.c:51-62, osip_alert_info.c:51-62, osip_allow.c:51-62,
osip_authentication_info.c:222-235, osip_authorization.c:278-289, osip_call_info.c:49-60, osip_contact.c:85-95,
osip_content_encoding.c:54-65, osip_error_info.c:51-62, osip_proxy_authenticate.c:57-71, osip_proxy_authentication_info.c:61-75,
osip_proxy_authorization.c:55-66, osip_record_route.c:64-75, osip_route.c:68-79, osip_via.c:82-93, osip_www_authenticate.c:374-387.
The message is not null. They are the same but for the list, which is that of the kind `k`. -/
def osip_message_get (k : Setter) (m : SipMessage) (pos : Int) : Int × Option HeaderVal :=
  if ((m.hdr k).length : Int) ≤ pos then (OSIP_UNDEFINED_ERROR, none) else (pos, elementAt (m.hdr k) pos)

/-- `osip_message_get_body` (src/osipparser2/osip_body.c:122-133). -/
def osip_message_get_body (m : SipMessage) (pos : Int) : Int × Option Body :=
  if (m.bodies.length : Int) ≤ pos then (OSIP_UNDEFINED_ERROR, none) else (pos, elementAt m.bodies pos)

/-- The functions which give the header behind a pointer: src/osipparser2, osip_call_id.c:56-60, osip_content_type.c:75-79,
osip_cseq.c:107-111, osip_from.c:59-63, osip_mime_version.c:58-62, osip_to.c:64-68. -/
def osip_message_get_one (k : Setter) (m : SipMessage) : Option HeaderVal := (m.hdr k).head?

/-! ## Specification -/

/-- What a line of the header `n` carries: the text behind the colon without the blanks around it, `none` if there is nothing, and
the values in it. Headers which are not lists carry one value; the others carry values with commas between them, and an empty one
counts for nothing. A comma in quotes or in a URI is part of the value (`Element`). -/
inductive Carries (n : Str) : Option Str → List (Option Str) → Prop
  | nothing : Carries n none [none]
  | one {v : Str} : v.Ok → (',' ∉ v ∨ lower n ∈ singleValued.map String.toList) → Carries n (some v) [some v]
  | element {e : Str} : Element e → e.Ok → lower n ∉ singleValued.map String.toList → Carries n (some (trim e)) [some (trim e)]
  | list {es : List Str} : lower n ∉ singleValued.map String.toList → 2 ≤ es.length → (∀ e ∈ es, Element e ∧ e.Ok) →
      Carries n (some (commaJoin es)) ((es.filter (· ≠ [])).map fun e => some (trim e))

/-- The header which the parser of its kind makes of a value, if it accepts it. Empty values are left out, but for Accept. -/
def headerOf (sscanf : Str → Option Nat) (k : Setter) (v : Option Str) : Option HeaderVal :=
  if k ≠ .accept ∧ (v = none ∨ v = some []) then none
  else (parseHeader sscanf k (v.map Str.buf)).bind fun r => if r.1 = 0 then some r.2 else none

/-- The answer for a position if these are the elements. -/
def answerAt {α : Type} (l : List α) (pos : Nat) : Int × Option α :=
  (l[pos]?).elim (-1, none) fun x => (pos, some x)

/-! ## Proofs -/

theorem get_answer (k : Setter) (m : SipMessage) (pos : Nat) : osip_message_get k m pos = answerAt (m.hdr k) pos := by
  unfold osip_message_get answerAt elementAt
  by_cases h : pos < (m.hdr k).length
  · rw [if_neg (by omega), if_neg (by omega), Int.toNat_natCast, List.getElem?_eq_getElem h]
    rfl
  · rw [if_pos (by omega), List.getElem?_eq_none (by omega)]
    rfl

theorem get_body_answer (m : SipMessage) (pos : Nat) : osip_message_get_body m pos = answerAt m.bodies pos := by
  unfold osip_message_get_body answerAt elementAt
  by_cases h : pos < m.bodies.length
  · rw [if_neg (by omega), if_neg (by omega), Int.toNat_natCast, List.getElem?_eq_getElem h]
    rfl
  · rw [if_pos (by omega), List.getElem?_eq_none (by omega)]
    rfl

theorem get_header_answer (m : SipMessage) (pos : Nat) : osip_message_get_header m pos = answerAt m.headers pos := by
  unfold osip_message_get_header answerAt headerAt
  by_cases h : pos < m.headers.length
  · rw [if_neg (by omega), if_neg (by omega), Int.toNat_natCast, List.getElem?_eq_getElem h]
    rfl
  · rw [if_pos (by omega), List.getElem?_eq_none (by omega)]
    rfl

theorem carries_ok {n : Str} {v : Option Str} {vs : List (Option Str)} (h : Carries n v vs) : ∀ w ∈ vs, ∀ s ∈ w, Str.Ok s := by
  intro w hw s hs
  cases h with
  | nothing => simp at hw; simp [hw] at hs
  | one hok => simp at hw; subst hw; cases hs; exact hok
  | element _ hok => simp at hw; subst hw; cases hs; exact trim_ok hok
  | list _ _ hes =>
    obtain ⟨e, he, rfl⟩ := List.mem_map.1 hw
    cases hs
    exact trim_ok (hes e (List.mem_filter.1 he).1).2

section

variable (sscanf : Str → Option Nat) (signed : Bool)

/-- A line does what its values do one after the other. -/
theorem line_carries {a : Str} (ha : a.Ok) {v : Option Str} {vs : List (Option Str)} (h : Carries a v vs) (m : SipMessage) :
    setLine sscanf signed m (a, v) = vs.foldlM (fun m v => setOne sscanf signed (lower a) m v) m := by
  have hlo := lower_ok ha
  have hb : ∀ x : Option SipMessage, x.bind some = x := by intro x; cases x <;> rfl
  have hone : ∀ (set : List Str → Str → Int) (v : Str), (set [] v, [v]) = storeAll set [] [v] := by
    intro set v
    simp only [storeAll]
    split
    · rfl
    · next h => simp only [ne_eq, Decidable.not_not] at h; rw [h]
  have run : ∀ (v : Str) (ws : List Str), (∀ set, set_multiple_header set (lower a) (Str.buf v) = some (storeAll set [] ws)) →
      setLine sscanf signed m (a, some v) = ws.foldlM (fun m v => setOne sscanf signed (lower a) m (some v)) m := by
    intro v ws hs
    unfold setLine message_set_multiple
    rw [Str.buf, c57_tolower ha]
    simp only [Option.bind_eq_bind, Option.bind_some, cstr_at hlo, hs]
    exact values_fold _ m ws [] m rfl
  cases h with
  | nothing => simp only [List.foldlM_cons, List.foldlM_nil, Option.bind_eq_bind, pure, hb]; exact line_none sscanf signed ha m
  | @one v hv hc =>
    rw [run v [v] fun set => by rw [Str.buf, c46_single hv hc, hone]]
    rfl
  | @element e he hok hn =>
    rw [run _ _ fun set => one_element hn he hok set]
    rfl
  | @list es hn hl hes =>
    rw [run _ _ fun set => c46_split_partial hn hl hes [] set]
    simp only [List.foldlM_map]

theorem setter_adds {k : Setter} {v : Option Str} {m m' : SipMessage} {i : Int} (h : callSetter sscanf k m v = some (i, m')) :
    m'.hdr k = (if presentCode k = none then m.hdr k ++ (headerOf sscanf k v).toList
      else if m.hdr k = [] then (headerOf sscanf k v).toList else m.hdr k) ∧ m'.bodies = m.bodies := by
  unfold callSetter at h
  simp only [Option.bind_eq_bind, Option.pure_def] at h
  split at h
  · rename_i hc
    cases h
    obtain ⟨rfl, hl⟩ := hc
    rw [if_neg (by decide), if_neg (by intro e; simp [e] at hl)]
    exact ⟨rfl, rfl⟩
  · split at h
    · rename_i he
      cases h
      have hh : headerOf sscanf k v = none := by rw [headerOf, if_pos he]
      rw [hh]
      refine ⟨?_, rfl⟩
      rw [Option.toList_none, List.append_nil]
      split
      · rfl
      · split <;> simp_all
    · rename_i he
      have hh : headerOf sscanf k v = (parseHeader sscanf k (v.map Str.buf)).bind fun r => if r.1 = 0 then some r.2 else none := by
        rw [headerOf, if_neg he]
      split at h
      · rename_i code hp
        rw [if_neg (by rw [hp]; simp)]
        split at h
        · rename_i hl
          cases h
          rw [if_neg (by intro e; simp [e] at hl)]
          exact ⟨rfl, rfl⟩
        · rename_i hl
          have hl : m.hdr k = [] := by simpa using hl
          rw [if_pos hl, hh]
          obtain ⟨r, h1, h2⟩ := Option.bind_eq_some_iff.1 h
          rw [h1, Option.bind_some]
          split at h2
          · rename_i hr; cases h2; rw [if_neg hr]; exact ⟨hl, rfl⟩
          · rename_i hr; cases h2; rw [if_pos (by simpa using hr)]; simp [SipMessage.add, hl]
      · rename_i hp
        rw [if_pos hp, hh]
        obtain ⟨r, h1, h2⟩ := Option.bind_eq_some_iff.1 h
        rw [h1, Option.bind_some]
        split at h2
        · rename_i hr; cases h2; rw [if_neg hr]; simp
        · rename_i hr; cases h2; rw [if_pos (by simpa using hr)]; simp [SipMessage.add]

/-- The headers of a kind after one more value. -/
def addValue (k : Setter) (l : List HeaderVal) (v : Option Str) : List HeaderVal :=
  if presentCode k = none then l ++ (headerOf sscanf k v).toList else if l = [] then (headerOf sscanf k v).toList else l

theorem one_known {a : Str} {k : Setter} (hk : kindOf a = some k) {v : Option Str} {m m' : SipMessage} (hm : m.cached = none)
    (h : setOne sscanf signed (lower a) m v = some m') : m'.hdr k = addValue sscanf k (m.hdr k) v ∧ m'.cached = none := by
  obtain ⟨i, e, h1, h2, h3, -⟩ := kind_entry signed hk
  have hc : m'.cached = none := acts_cached (acts_one sscanf signed a v) hm h
  simp only [setOne, message_set__header, h1, h2, h3, Option.bind_eq_bind, Option.bind_some, accepted, Option.bind_eq_some_iff] at h
  obtain ⟨⟨j, m1⟩, ⟨⟨err, m2⟩, h4, h5⟩, h6⟩ := h
  simp only [Option.pure_def, Option.some.injEq, Prod.mk.injEq] at h5
  obtain ⟨h5, rfl⟩ := h5
  split at h6
  · cases h6
    exact ⟨(setter_adds sscanf h4).1, hc⟩
  · cases h6

theorem one_unknown {a : Str} (hk : kindOf a = none) (ha : a.Ok) (h0 : trim (lower a) ≠ []) {v : Option Str} (hv : ∀ s ∈ v, s.Ok)
    {m m' : SipMessage} (h : setOne sscanf signed (lower a) m v = some m') :
    m'.headers = m.headers ++ [⟨some (trim (lower a)), v.map trim⟩] ∧ m'.cached = none := by
  have e := (c79_header (lower_ok ha) h0 hv).1 [] []
  have e' : osip_message_set_header (some (Str.buf (lower a))) (v.map Str.buf) = some (OSIP_SUCCESS, some ⟨some (trim (lower a)), v.map trim⟩) := by
    cases v <;> exact e
  simp only [setOne, message_set__header, kind_none signed hk, Option.bind_eq_bind, Option.bind_some, e', accepted] at h
  simp only [OSIP_SUCCESS, ne_eq, not_true_eq_false, if_false, Option.bind_some, Option.pure_def, if_true, Option.some.injEq] at h
  subst h
  exact ⟨rfl, rfl⟩

theorem values_known {a : Str} {k : Setter} (hk : kindOf a = some k) {vs : List (Option Str)} :
    ∀ {m m' : SipMessage}, m.cached = none → vs.foldlM (fun m v => setOne sscanf signed (lower a) m v) m = some m' →
      m'.hdr k = vs.foldl (addValue sscanf k) (m.hdr k) ∧ m'.cached = none := by
  induction vs with
  | nil => intro m m' hm h; cases h; exact ⟨rfl, hm⟩
  | cons v vs ih =>
    intro m m' hm h
    rw [List.foldlM_cons, Option.bind_eq_bind, Option.bind_eq_some_iff] at h
    obtain ⟨m1, h1, h2⟩ := h
    obtain ⟨g1, g2⟩ := one_known sscanf signed hk hm h1
    rw [List.foldl_cons, ← g1]
    exact ih g2 h2

theorem values_unknown {a : Str} (hk : kindOf a = none) (ha : a.Ok) (h0 : trim (lower a) ≠ []) {vs : List (Option Str)}
    (hv : ∀ v ∈ vs, ∀ s ∈ v, s.Ok) : ∀ {m m' : SipMessage}, m.cached = none →
      vs.foldlM (fun m v => setOne sscanf signed (lower a) m v) m = some m' →
      m'.headers = m.headers ++ (vs.map fun v => ⟨some (trim (lower a)), v.map trim⟩) ∧ m'.cached = none := by
  induction vs with
  | nil => intro m m' hm h; cases h; simp [hm]
  | cons v vs ih =>
    intro m m' hm h
    rw [List.foldlM_cons, Option.bind_eq_bind, Option.bind_eq_some_iff] at h
    obtain ⟨m1, h1, h2⟩ := h
    obtain ⟨g1, g2⟩ := one_unknown sscanf signed hk ha h0 (hv v (by simp)) h1
    obtain ⟨g3, g4⟩ := ih (fun w hw => hv w (by simp [hw])) g2 h2
    exact ⟨by rw [g3, g1]; simp, g4⟩

/-- The lines of one kind, and what each of them carries. -/
inductive Lines (k : Option Setter) : List (Str × Option Str) → List (Str × List (Option Str)) → Prop
  | nil : Lines k [] []
  | other {q : Str × Option Str} {l : List (Str × Option Str)} {r : List (Str × List (Option Str))} : kindOf q.1 ≠ k → Lines k l r → Lines k (q :: l) r
  | line {q : Str × Option Str} {vs : List (Option Str)} {l : List (Str × Option Str)} {r : List (Str × List (Option Str))} :
      kindOf q.1 = k → Carries q.1 q.2 vs → Lines k l r → Lines k (q :: l) ((q.1, vs) :: r)

theorem lines_known {k : Setter} {l : List (Str × Option Str)} {r : List (Str × List (Option Str))} (h : Lines (some k) l r) (hl : LinesOk l) :
    ∀ {m m' : SipMessage}, m.cached = none → l.foldlM (setLine sscanf signed) m = some m' →
      m'.hdr k = (r.flatMap (·.2)).foldl (addValue sscanf k) (m.hdr k) := by
  induction h with
  | nil => intro m m' _ h; cases h; rfl
  | @other q l r hq _ ih =>
    intro m m' hm h
    obtain ⟨⟨g1, g2⟩, hl⟩ := linesOk_cons.1 hl
    rw [List.foldlM_cons, Option.bind_eq_bind, Option.bind_eq_some_iff] at h
    obtain ⟨m1, h1, h2⟩ := h
    have ha := acts_line sscanf signed g1 g2
    rw [ih hl (acts_cached ha hm h1) h2]
    congr 1
    cases hk : kindOf q.1 with
    | none =>
      rw [hk] at ha
      obtain ⟨f, hf⟩ := ha
      have h1' := (hf m hm).symm.trans h1
      obtain ⟨x, -, rfl⟩ := Option.map_eq_some_iff.1 h1'
      rfl
    | some j =>
      rw [hk] at ha hq
      obtain ⟨f, hf⟩ := ha
      have h1' := (hf m hm).symm.trans h1
      obtain ⟨x, -, rfl⟩ := Option.map_eq_some_iff.1 h1'
      simp only
      rw [if_neg]
      rintro rfl
      exact hq rfl
  | @line q vs l r hq hc _ ih =>
    intro m m' hm h
    obtain ⟨⟨g1, g2⟩, hl⟩ := linesOk_cons.1 hl
    rw [List.foldlM_cons, Option.bind_eq_bind, Option.bind_eq_some_iff] at h
    obtain ⟨m1, h1, h2⟩ := h
    have h1' : setLine sscanf signed m (q.1, q.2) = some m1 := h1
    rw [line_carries sscanf signed g1 hc] at h1'
    obtain ⟨e1, e2⟩ := values_known sscanf signed hq hm h1'
    rw [ih hl e2 h2, e1]
    simp

theorem lines_unknown {l : List (Str × Option Str)} {r : List (Str × List (Option Str))} (h : Lines none l r) (hl : LinesOk l)
    (hn : ∀ q ∈ l, trim (lower q.1) = lower q.1 ∧ lower q.1 ≠ []) :
    ∀ {m m' : SipMessage}, m.cached = none → l.foldlM (setLine sscanf signed) m = some m' →
      m'.headers = m.headers ++ r.flatMap fun q => q.2.map fun v => ⟨some (lower q.1), v.map trim⟩ := by
  induction h with
  | nil => intro m m' _ h; cases h; simp
  | @other q l r hq _ ih =>
    intro m m' hm h
    obtain ⟨⟨g1, g2⟩, hl⟩ := linesOk_cons.1 hl
    rw [List.foldlM_cons, Option.bind_eq_bind, Option.bind_eq_some_iff] at h
    obtain ⟨m1, h1, h2⟩ := h
    have ha := acts_line sscanf signed g1 g2
    rw [ih hl (fun x hx => hn x (by simp [hx])) (acts_cached ha hm h1) h2]
    congr 1
    cases hk : kindOf q.1 with
    | none => exact absurd hk hq
    | some j =>
      rw [hk] at ha
      obtain ⟨f, hf⟩ := ha
      have h1' := (hf m hm).symm.trans h1
      obtain ⟨x, -, rfl⟩ := Option.map_eq_some_iff.1 h1'
      rfl
  | @line q vs l r hq hc _ ih =>
    intro m m' hm h
    obtain ⟨⟨g1, g2⟩, hl⟩ := linesOk_cons.1 hl
    rw [List.foldlM_cons, Option.bind_eq_bind, Option.bind_eq_some_iff] at h
    obtain ⟨m1, h1, h2⟩ := h
    have h1' : setLine sscanf signed m (q.1, q.2) = some m1 := h1
    rw [line_carries sscanf signed g1 hc] at h1'
    obtain ⟨t1, t2⟩ := hn q (by simp)
    obtain ⟨e1, e2⟩ := values_unknown sscanf signed hq g1 (by rw [t1]; exact t2) (carries_ok hc) hm h1'
    rw [ih hl (fun x hx => hn x (by simp [hx])) e2 h2, e1, t1]
    simp

theorem fold_add {k : Setter} (vs : List (Option Str)) (l : List HeaderVal) :
    vs.foldl (addValue sscanf k) l = if presentCode k = none then l ++ vs.filterMap (headerOf sscanf k)
      else if l = [] then (vs.filterMap (headerOf sscanf k)).take 1 else l := by
  induction vs generalizing l with
  | nil =>
    simp only [List.foldl_nil, List.filterMap_nil, List.append_nil, List.take_nil]
    split
    · rfl
    · split <;> simp_all
  | cons v vs ih =>
    rw [List.foldl_cons, ih]
    unfold addValue
    by_cases hp : presentCode k = none
    · simp only [hp, if_true, List.filterMap_cons]
      cases headerOf sscanf k v <;> simp
    · simp only [hp, if_false, List.filterMap_cons]
      by_cases hl : l = []
      · subst hl
        cases headerOf sscanf k v <;> simp
      · simp [hl]

end

theorem read_lines {sscanf : Str → Option Nat} {sscanfD : Str → Option Int} (hd : SscanfDOk sscanfD) (signed : Bool)
    {w : List Char} (hw : ∀ c ∈ w, c = '\r' ∨ c = '\n') {nl : Str} {body : List Char} (hnl : Newline nl body) {a : Str} {d : StartLine}
    (ha : StartForm sscanf a d) {hs : List (Str × Str)} (h : ∀ q ∈ hs, HeaderLine q) {m : SipMessage}
    (e : osip_message_parse sscanf sscanfD signed (theTable signed false) (w ++ wire nl a hs body) = some (OSIP_SUCCESS, m)) :
    ∃ m1, (hs.map fun q => (trim q.1, lineValue q.2)).foldlM (setLine sscanf signed) { start := d } = some m1 ∧ RestOf m1 m := by
  rw [c91_division hd signed hw hnl ha h, Option.bind_eq_some_iff] at e
  obtain ⟨⟨i, m1⟩, e1, e2⟩ := e
  simp only at e2
  split at e2
  · rename_i hi
    simp only [Option.some.injEq, Prod.mk.injEq] at e2
    exact absurd e2.1 hi
  · rename_i hi
    have hi : i = 0 := by simpa using hi
    subst hi
    refine ⟨m1, ?_, rest_of e2⟩
    rw [← apply_lines, e1]
    rfl

/-! ## C130 -/

/-- **C130**. In a message that was read the header at a position is the one which the parser made of the value that is there when all
values of the lines of this header are counted through, in their order; values which the parser did not accept and empty ones are not
counted. From the last one on the position is refused. A header which may only be there once is the first one. Content-Length is given
a value of its own when the body is read (C91). -/
theorem c130_by_position {sscanf : Str → Option Nat} {sscanfD : Str → Option Int} (hd : SscanfDOk sscanfD) (signed : Bool)
    {w : List Char} (hw : ∀ c ∈ w, c = '\r' ∨ c = '\n') {nl : Str} {body : List Char} (hnl : Newline nl body) {a : Str} {d : StartLine}
    (ha : StartForm sscanf a d) {hs : List (Str × Str)} (h : ∀ q ∈ hs, HeaderLine q) {m : SipMessage}
    (e : osip_message_parse sscanf sscanfD signed (theTable signed false) (w ++ wire nl a hs body) = some (OSIP_SUCCESS, m))
    {k : Setter} (hk : k ≠ .content_length) {r : List (Str × List (Option Str))}
    (hr : Lines (some k) (hs.map fun q => (trim q.1, lineValue q.2)) r) :
    (presentCode k = none → ∀ pos : Nat, osip_message_get k m pos = answerAt ((r.flatMap (·.2)).filterMap (headerOf sscanf k)) pos) ∧
    (presentCode k ≠ none → osip_message_get_one k m = ((r.flatMap (·.2)).filterMap (headerOf sscanf k)).head?) := by
  obtain ⟨m1, h1, h2⟩ := read_lines hd signed hw hnl ha h e
  have h3 := lines_known sscanf signed hr (header_lines_ok h) rfl h1
  rw [fold_add, ← h2.hdr k hk] at h3
  refine ⟨fun hp pos => ?_, fun hp => ?_⟩
  · rw [get_answer, h3, if_pos hp]
    rfl
  · rw [osip_message_get_one, h3, if_neg hp, if_pos rfl]
    cases List.filterMap (headerOf sscanf k) (r.flatMap (·.2)) <;> rfl

/-- **C130** for headers without a structure of their own: all of them are in one list, with their names in lower case. -/
theorem c130_others {sscanf : Str → Option Nat} {sscanfD : Str → Option Int} (hd : SscanfDOk sscanfD) (signed : Bool)
    {w : List Char} (hw : ∀ c ∈ w, c = '\r' ∨ c = '\n') {nl : Str} {body : List Char} (hnl : Newline nl body) {a : Str} {d : StartLine}
    (ha : StartForm sscanf a d) {hs : List (Str × Str)} (h : ∀ q ∈ hs, HeaderLine q) {m : SipMessage}
    (e : osip_message_parse sscanf sscanfD signed (theTable signed false) (w ++ wire nl a hs body) = some (OSIP_SUCCESS, m))
    {r : List (Str × List (Option Str))} (hr : Lines none (hs.map fun q => (trim q.1, lineValue q.2)) r) (pos : Nat) :
    osip_message_get_header m pos = answerAt (r.flatMap fun q => q.2.map fun v => ⟨some (lower q.1), v.map trim⟩) pos := by
  obtain ⟨m1, h1, h2⟩ := read_lines hd signed hw hnl ha h e
  have h3 := lines_unknown sscanf signed hr (header_lines_ok h) (by
    intro q hq
    obtain ⟨x, hx, rfl⟩ := List.mem_map.1 hq
    have hn := lower_name (trim_name (h x hx).1) (trim_trim x.1)
    exact ⟨hn.2.2, hn.1.ne⟩) rfl h1
  rw [get_header_answer, h2.headers, h3]
  rfl

/-- **C130**. The code says whether there is a header, for every position. -/
theorem c130_code (k : Setter) (m : SipMessage) (pos : Int) :
    (0 ≤ (osip_message_get k m pos).1 ↔ ∃ x, (osip_message_get k m pos).2 = some x) ∧
    (0 ≤ (osip_message_get_body m pos).1 ↔ ∃ x, (osip_message_get_body m pos).2 = some x) ∧
    (0 ≤ (osip_message_get_header m pos).1 ↔ ∃ x, (osip_message_get_header m pos).2 = some x) := by
  by_cases hp : 0 ≤ pos
  · obtain ⟨n, rfl⟩ := Int.eq_ofNat_of_zero_le hp
    have ha : ∀ {α : Type} (l : List α), 0 ≤ (answerAt l n).1 ↔ ∃ x, (answerAt l n).2 = some x := by
      intro α l
      unfold answerAt
      cases l[n]? <;> simp
    have h1 := get_answer k m n
    have h2 := get_body_answer m n
    have h3 := get_header_answer m n
    rw [h1, h2, h3]
    exact ⟨ha _, ha _, ha _⟩
  · have h1 : osip_message_get k m pos = (pos, none) := by
      rw [osip_message_get, if_neg (by omega), elementAt, if_pos (by omega)]
    have h2 : osip_message_get_body m pos = (pos, none) := by
      rw [osip_message_get_body, if_neg (by omega), elementAt, if_pos (by omega)]
    have h3 : osip_message_get_header m pos = (pos, none) := by
      rw [osip_message_get_header, if_neg (by omega), headerAt, if_pos (by omega)]
    rw [h1, h2, h3]
    simp only [reduceCtorEq, exists_false, iff_false]
    exact ⟨hp, hp, hp⟩

/-- The usual loop, `for (pos = 0; osip_message_get_… (sip, pos, &x) >= 0; pos++)`, with a bound for the number of rounds: what it
sees, and whether it came to its end. -/
def visited (k : Setter) (m : SipMessage) : Nat → Int → List (Option HeaderVal) × Bool
  | 0, _ => ([], false)
  | n + 1, pos =>
    if 0 ≤ (osip_message_get k m pos).1 then
      ((osip_message_get k m pos).2 :: (visited k m n (pos + 1)).1, (visited k m n (pos + 1)).2)
    else ([], true)

theorem visited_from (k : Setter) (m : SipMessage) (n : Nat) : ∀ pos : Nat, pos ≤ (m.hdr k).length → (m.hdr k).length < n + pos →
    visited k m n pos = (((m.hdr k).drop pos).map some, true) := by
  induction n with
  | zero => intro pos h1 h2; omega
  | succ n ih =>
    intro pos h1 h2
    rw [visited, get_answer]
    by_cases hp : pos < (m.hdr k).length
    · have hx : answerAt (m.hdr k) pos = ((pos : Int), some (m.hdr k)[pos]) := by rw [answerAt, List.getElem?_eq_getElem hp]; rfl
      have hs : ((pos : Int) + 1) = ((pos + 1 : Nat) : Int) := by omega
      rw [hx, if_pos (by simp), hs, ih (pos + 1) (by omega) (by omega), List.drop_eq_getElem_cons hp]
      rfl
    · have hx : answerAt (m.hdr k) pos = (-1, none) := by rw [answerAt, List.getElem?_eq_none (by omega)]; rfl
      rw [hx, if_neg (by simp), List.drop_eq_nil_of_le (by omega)]
      rfl

/-- **C130**. The usual loop sees every header of the kind once, in order, and ends. -/
theorem c130_loop (k : Setter) (m : SipMessage) {n : Nat} (hn : (m.hdr k).length < n) :
    visited k m n 0 = ((m.hdr k).map some, true) := by
  have := visited_from k m n 0 (by omega) (by omega)
  simpa using this

/-! ## Examples -/

/-- A response with three Vias in two lines and two headers of other kinds. -/
def threeVias : List (Str × Str) := [("Via".toList, " SIP/2.0/UDP a, SIP/2.0/UDP b".toList), ("X-a".toList, " 1".toList),
  ("v".toList, "SIP/2.0/TCP c".toList), ("x-B".toList, [])]

def viaLines : List (Str × List (Option Str)) :=
  [("Via".toList, [some "SIP/2.0/UDP a".toList, some "SIP/2.0/UDP b".toList]), ("v".toList, [some "SIP/2.0/TCP c".toList])]

example : Lines (some .via) (threeVias.map fun q => (trim q.1, lineValue q.2)) viaLines ∧
    Lines none (threeVias.map fun q => (trim q.1, lineValue q.2)) [("X-a".toList, [some "1".toList]), ("x-B".toList, [none])] := by
  have hel : ∀ s : Str, (∀ c ∈ s, c ≠ ',' ∧ c ≠ '"' ∧ c ≠ '<' ∧ c ≠ '>') → Element s := by
    intro s
    induction s with
    | nil => intro _; exact .nil
    | cons c s ih =>
      intro h
      have hc := h c (by simp)
      exact .cons (p := [c]) (.char hc.1 hc.2.1 hc.2.2.1 hc.2.2.2) (ih fun x hx => h x (by simp [hx]))
  refine ⟨.line (by decide +kernel) ?_ (.other (by decide +kernel) (.line (by decide +kernel) ?_ (.other (by decide +kernel) .nil))),
    .other (by decide +kernel) (.line (by decide +kernel) ?_ (.other (by decide +kernel) (.line (by decide +kernel) ?_ .nil)))⟩
  · refine Carries.list (es := ["SIP/2.0/UDP a".toList, " SIP/2.0/UDP b".toList]) (by decide +kernel) (by decide) ?_
    intro e he
    simp only [List.mem_cons, List.not_mem_nil, or_false] at he
    rcases he with rfl | rfl
    · exact ⟨hel _ (by decide), by decide⟩
    · exact ⟨hel _ (by decide), by decide⟩
  · exact .one (by decide +kernel) (.inl (by decide +kernel))
  · exact .one (by decide +kernel) (.inl (by decide +kernel))
  · exact .nothing

/-- The message is accepted, and these are the headers at the positions. -/
example : ((osip_message_parse sscanf2 sscanfD1 true (theTable true false) ([] ++ wire "\r\n".toList "SIP/2.0 200 OK".toList threeVias [])).any fun r =>
    r.1 == 0 &&
    decide (([0, 1, 2, 3, -1].map fun p => ((osip_message_get .via r.2 p).1, (osip_message_get .via r.2 p).2.map fun
        | .via v => v.host
        | _ => none)) =
      [(0, some (some "a".toList)), (1, some (some "b".toList)), (2, some (some "c".toList)), (-1, none), (-1, none)]) &&
    decide (([0, 1, 2].map fun p => osip_message_get_header r.2 p) =
      [(0, some ⟨some "x-a".toList, some "1".toList⟩), (1, some ⟨some "x-b".toList, none⟩), (-1, none)])) = true := by
  decide +kernel

end Osip
