import Verif.Match.PropsOld
import Verif.Dialog.Props
import Verif.Parse.PropsFrom

/-!
# C129: headers are compared by what identifies them

The functions with which the transaction and dialog layers compare headers: `osip_call_id_match`, `osip_cseq_match`,
`osip_from_tag_match`, `osip_via_match` and `osip_from_compare` (models in `Verif/Hdr.lean`).
-/

set_option autoImplicit false

namespace Osip

/-! ## Specification -/

/-- A comparison (0: the same) that works like one of equals on the headers for which `complete` holds: a header is the same as itself,
the order of the two does not matter, and two headers which are the same as a third are the same. -/
structure Comparison {α : Type} (complete : α → Prop) (cmp : α → α → Int) : Prop where
  refl : ∀ x, complete x → cmp x x = 0
  symm : ∀ x y, cmp x y = 0 → cmp y x = 0
  trans : ∀ x y z, cmp x y = 0 → cmp y z = 0 → cmp x z = 0
  complete : ∀ x y, cmp x y = 0 → complete x

/-- The first parameter named `tag` has a value, if there is one. -/
def TagHasValue (f : From) : Prop := ∀ p, FirstParam f.gen_params "tag" p → p.gvalue ≠ none

/-- No parameter but one named exactly `tag` starts like it, and none is `tag` in other letters. -/
def PlainTag (f : From) : Prop :=
  ∀ p ∈ f.gen_params, p.gname ≠ "tag".toList → ¬ "tag".toList <+: p.gname ∧ p.gname.map toLowerC ≠ "tag".toList

/-! ## Lemmas -/

theorem firstParam_unique {ps : List Param} {n : String} (hn : n.toList.map toLowerC = n.toList) {p q : Param}
    (h1 : FirstParam ps n p) (h2 : FirstParam ps n q) : p = q := by
  rw [← firstParam_iff hn] at h1 h2
  rw [h1] at h2
  exact Option.some.inj h2

theorem not_both {ps : List Param} {n : String} {p : Param} (h1 : NoParam ps n) (h2 : FirstParam ps n p) : False := by
  obtain ⟨a, b, rfl, _, h⟩ := h2
  exact h1 p (by simp) h

theorem sameTag_symm {f g : From} (h : SameTag f g) : SameTag g f := by
  rcases h with ⟨h1, h2⟩ | ⟨p, q, t, h1, h2, h3, h4⟩
  · exact .inl ⟨h2, h1⟩
  · exact .inr ⟨q, p, t, h2, h1, h4, h3⟩

theorem sameTag_trans {f g h : From} (h1 : SameTag f g) (h2 : SameTag g h) : SameTag f h := by
  rcases h1 with ⟨a1, a2⟩ | ⟨p, q, t, a1, a2, a3, a4⟩
  · rcases h2 with ⟨b1, b2⟩ | ⟨p', q', t', b1, b2, b3, b4⟩
    · exact .inl ⟨a1, b2⟩
    · exact (not_both a2 b1).elim
  · rcases h2 with ⟨b1, b2⟩ | ⟨p', q', t', b1, b2, b3, b4⟩
    · exact (not_both b1 a2).elim
    · have := firstParam_unique tag_lower a2 b1
      subst this
      rw [a4] at b3; cases b3
      exact .inr ⟨p, q', t, a1, b2, a3, b4⟩

theorem find_same {α : Type} {p q : α → Bool} {l : List α} (h : ∀ x ∈ l, p x = q x) : l.find? p = l.find? q := by
  induction l with
  | nil => rfl
  | cons a l ih => rw [List.find?_cons, List.find?_cons, h a (by simp), ih (fun x hx => h x (by simp [hx]))]

/-- The text of a Via in the model of the transaction layer is what the pointer-level model writes. -/
theorem via_to_str_agrees (v : Via) (s : Str) :
    via_to_str (some v) = .ok s ↔ osip_via_to_str (some v) = some (OSIP_SUCCESS, some s) := by
  obtain ⟨version, protocol, host, port, comment, ps⟩ := v
  cases h1 : version with
  | none => simp [via_to_str, osip_via_to_str, OSIP_SUCCESS, OSIP_BADPARAMETER]
  | some version =>
    cases h2 : protocol with
    | none => simp [via_to_str, osip_via_to_str, OSIP_SUCCESS, OSIP_BADPARAMETER]
    | some protocol =>
      cases h3 : host with
      | none => simp [via_to_str, osip_via_to_str, OSIP_SUCCESS, OSIP_BADPARAMETER]
      | some host =>
        rw [osip_via_to_str_eq rfl rfl rfl]
        simp only [via_to_str, Except.ok.injEq, Option.some.injEq, Prod.mk.injEq, true_and]
        have e1 : (if host.contains ':' = true then '[' :: host ++ [']'] else host) = hostText host := by
          simp [hostText]
        rw [e1]
        cases port <;> cases comment <;> simp [portText, commentText]

theorem sameVia_symm {v w : Via} (h : SameVia v w) : SameVia w v := by
  obtain ⟨t, h1, h2⟩ := h
  exact ⟨t, h2, h1⟩

/-! ## Properties -/

/-- **C129**, Call-ID: two of them are the same exactly if the part before the `@` and the host, if any, are. -/
theorem c129_call_id :
    (∀ c d : CallId, call_id_match (some c) (some d) = 0 ↔ c = d ∧ c.number ≠ none) ∧
    Comparison (fun c : CallId => c.number ≠ none) (fun c d => call_id_match (some c) (some d)) := by
  have key : ∀ c d : CallId, call_id_match (some c) (some d) = 0 ↔ c = d ∧ c.number ≠ none := by
    intro c d
    rw [call_id_match_iff]
    obtain ⟨n, h⟩ := c
    obtain ⟨n', h'⟩ := d
    cases n <;> simp [SameCallId]
  refine ⟨key, ⟨fun x hx => (key x x).2 ⟨rfl, hx⟩, fun x y h => ?_, fun x y z h1 h2 => ?_, fun x y h => ((key x y).1 h).2⟩⟩
  · obtain ⟨rfl, h'⟩ := (key x y).1 h
    exact h
  · obtain ⟨rfl, h⟩ := (key x y).1 h1
    exact h2

/-- **C129**, CSeq: the numbers are the same text and the methods, of which INVITE and ACK count as the same. -/
theorem c129_cseq :
    (∀ (n k m l : Str), cseq_match (some ⟨some m, some n⟩) (some ⟨some l, some k⟩) = 0 ↔
      n = k ∧ (m = l ∨ (m = "INVITE".toList ∧ l = "ACK".toList) ∨ (m = "ACK".toList ∧ l = "INVITE".toList))) ∧
    Comparison (fun c : CSeq => c.method ≠ none ∧ c.number ≠ none) (fun c d => cseq_match (some c) (some d)) := by
  refine ⟨fun n k m l => ?_, ⟨fun x hx => ?_, fun x y h => ?_, fun x y z h1 h2 => ?_, fun x y h => ?_⟩⟩
  · rw [cseq_match_iff]
    simp [SameCSeq]
    grind
  · rw [cseq_match_iff]
    obtain ⟨m, n⟩ := x
    obtain ⟨m, rfl⟩ := Option.ne_none_iff_exists'.1 hx.1
    obtain ⟨n, rfl⟩ := Option.ne_none_iff_exists'.1 hx.2
    exact ⟨n, m, m, rfl, rfl, .inl rfl⟩
  · rw [cseq_match_iff] at h ⊢
    obtain ⟨n, m, l, rfl, rfl, h⟩ := h
    exact ⟨n, l, m, rfl, rfl, h.imp Eq.symm (fun e => ⟨e.2, e.1⟩)⟩
  · rw [cseq_match_iff] at h1 h2 ⊢
    obtain ⟨n, m, l, rfl, rfl, h1⟩ := h1
    obtain ⟨n', m', l', e, rfl, h2⟩ := h2
    cases e
    refine ⟨n, m, l', rfl, rfl, ?_⟩
    rcases h1 with rfl | h1
    · exact h2
    · rcases h2 with rfl | h2
      · exact .inr h1
      · exact .inr ⟨h1.1, h2.2⟩
  · rw [cseq_match_iff] at h
    obtain ⟨n, m, l, rfl, rfl, h⟩ := h
    simp

/-- **C129**, tags: they are the same exactly if neither header has one or both have the same (`SameTag`). A tag without value is not the
same as itself. -/
theorem c129_tag :
    (∀ f g : From, from_tag_match (some f) (some g) = 0 ↔ SameTag f g) ∧
    Comparison TagHasValue (fun f g => from_tag_match (some f) (some g)) := by
  refine ⟨from_tag_match_iff, ⟨fun x hx => ?_, fun x y h => ?_, fun x y z h1 h2 => ?_, fun x y h => ?_⟩⟩
  · rw [from_tag_match_iff]
    cases hp : paramByName x.gen_params "tag" with
    | none => exact .inl ⟨(noParam_iff tag_lower).1 hp, (noParam_iff tag_lower).1 hp⟩
    | some p =>
      have h1 := (firstParam_iff tag_lower).1 hp
      cases hv : p.gvalue with
      | none => exact absurd hv (hx p h1)
      | some t => exact .inr ⟨p, p, t, h1, h1, hv, hv⟩
  · rw [from_tag_match_iff] at h ⊢
    exact sameTag_symm h
  · rw [from_tag_match_iff] at h1 h2 ⊢
    exact sameTag_trans h1 h2
  · rw [from_tag_match_iff] at h
    intro p hp
    rcases h with ⟨a, _⟩ | ⟨q, _, t, a, _, b, _⟩
    · exact (not_both a hp).elim
    · rw [firstParam_unique tag_lower hp a, b]; simp

/-- **C129**, Via: the texts are compared, so of well-formed headers all parts - version, protocol, host, port, comment and parameters in
their order. -/
theorem c129_via :
    (∀ v w : Via, Nonempty (WfVia v) → Nonempty (WfVia w) → (via_match (some v) (some w) = 0 ↔ v = w)) ∧
    Comparison (fun v : Via => v.version ≠ none ∧ v.protocol ≠ none ∧ v.host ≠ none)
      (fun v w => via_match (some v) (some w)) := by
  have hc : ∀ v : Via, v.version ≠ none ∧ v.protocol ≠ none ∧ v.host ≠ none → ∃ t, via_to_str (some v) = .ok t := by
    rintro v ⟨h1, h2, h3⟩
    obtain ⟨a, ha⟩ := Option.ne_none_iff_exists'.1 h1
    obtain ⟨b, hb⟩ := Option.ne_none_iff_exists'.1 h2
    obtain ⟨c, hc⟩ := Option.ne_none_iff_exists'.1 h3
    exact ⟨_, (via_to_str_agrees v _).2 (osip_via_to_str_eq ha hb hc)⟩
  refine ⟨?_, ⟨fun x hx => ?_, fun x y h => ?_, fun x y z h1 h2 => ?_, fun x y h => ?_⟩⟩
  · rintro v w ⟨hv⟩ ⟨hw⟩
    rw [via_match_iff]
    obtain ⟨s, a1, a2⟩ := c50_via_round_trip_partial v hv []
    obtain ⟨t, b1, b2⟩ := c50_via_round_trip_partial w hw []
    constructor
    · rintro ⟨x, e1, e2⟩
      rw [via_to_str_agrees] at e1 e2
      rw [a1] at e1; rw [b1] at e2
      cases e1; cases e2
      rw [a2] at b2
      cases b2
      rfl
    · rintro rfl
      exact ⟨s, (via_to_str_agrees v s).2 a1, (via_to_str_agrees v s).2 a1⟩
  · obtain ⟨t, h⟩ := hc x hx
    exact (via_match_iff x x).2 ⟨t, h, h⟩
  · rw [via_match_iff] at h ⊢
    exact sameVia_symm h
  · rw [via_match_iff] at h1 h2 ⊢
    obtain ⟨t, a1, a2⟩ := h1
    obtain ⟨s, b1, b2⟩ := h2
    rw [a2] at b1; cases b1
    exact ⟨t, a1, b2⟩
  · rw [via_match_iff] at h
    obtain ⟨t, a1, _⟩ := h
    refine ⟨?_, ?_, ?_⟩ <;> intro h0 <;> simp [via_to_str, h0] at a1

/-- **C129**, From and To: the comparison does not depend on the order, a header is the same as itself if its URI has a host or a text,
and headers with SIP addresses are the same exactly if hosts, user names and tags do not differ - a missing user name or tag differs
from nothing. Missing: `PlainTag`; `c129_violated` shows that it is false without. -/
theorem c129_from_partial :
    (∀ f g : From, from_compare (some f) (some g) = 0 → from_compare (some g) (some f) = 0) ∧
    (∀ (f : From) (u : Uri), f.url = some u → u.host ≠ none ∨ u.string ≠ none → from_compare (some f) (some f) = 0) ∧
    ∀ (f g : From) (u v : Uri) (h k : Str), f.url = some u → g.url = some v → u.host = some h → v.host = some k → PlainTag f → PlainTag g →
      (from_compare (some f) (some g) = 0 ↔ h = k ∧ (∀ a b, u.username = some a → v.username = some b → a = b) ∧
        ∀ a b, HasTag f a → HasTag g b → a = b) := by
  refine ⟨fun f g h => ?_, fun f u hu hh => ?_, fun f g u v h k hu hv hh hk pf pg => ?_⟩
  · rw [from_compare_iff] at h ⊢
    obtain ⟨u, v, h1, h2, h⟩ := h
    refine ⟨v, u, h2, h1, ?_⟩
    rcases h with ⟨h, a1, a2, a3, a4⟩ | ⟨a1, a2, s, a3, a4⟩
    · exact .inl ⟨h, a2, a1, fun a b x y => (a3 b a y x).symm, fun a b x y => (a4 b a y x).symm⟩
    · exact .inr ⟨a2, a1, s, a4, a3⟩
  · rw [from_compare_iff]
    refine ⟨u, u, hu, hu, ?_⟩
    cases hh' : u.host with
    | some h =>
      refine .inl ⟨h, rfl, rfl, fun a b x y => ?_, fun a b x y => ?_⟩
      · rw [x] at y; exact Option.some.inj y
      · rw [tagLike_iff] at x y; rw [x] at y; exact Option.some.inj y
    | none =>
      obtain ⟨s, hs⟩ := Option.ne_none_iff_exists'.1 (hh.resolve_left (fun e => e hh'))
      exact .inr ⟨rfl, rfl, s, hs, hs⟩
  · have key : ∀ f : From, PlainTag f → ∀ a, TagLike f a ↔ HasTag f a := by
      intro f pf a
      rw [tagLike_iff, hasTag_iff, compareTag, paramByName]
      have : f.gen_params.find? (fun p => "tag".toList.isPrefixOf p.gname) =
          f.gen_params.find? (fun p => p.gname.length == "tag".toList.length && strcaseEq p.gname "tag".toList) := by
        apply find_same
        intro p hp
        by_cases he : p.gname = "tag".toList
        · rw [he]; decide
        · obtain ⟨b1, b2⟩ := pf p hp he
          have c1 : "tag".toList.isPrefixOf p.gname = false := by
            rw [← Bool.not_eq_true, List.isPrefixOf_iff_prefix]; exact b1
          have c2 : (p.gname.length == "tag".toList.length && strcaseEq p.gname "tag".toList) = false := by
            rw [← Bool.not_eq_true, byName_iff p _ tag_lower]; exact b2
          rw [c1, c2]
      rw [this]
    rw [from_compare_iff]
    constructor
    · rintro ⟨u', v', e1, e2, h'⟩
      rw [hu] at e1; rw [hv] at e2; cases e1; cases e2
      rcases h' with ⟨x, a1, a2, a3, a4⟩ | ⟨a1, _⟩
      · rw [hh] at a1; rw [hk] at a2; cases a1; cases a2
        exact ⟨rfl, a3, fun a b x y => a4 a b ((key f pf a).2 x) ((key g pg b).2 y)⟩
      · rw [hh] at a1; cases a1
    · rintro ⟨rfl, a3, a4⟩
      exact ⟨u, v, hu, hv, .inl ⟨h, hh, hk, a3, fun a b x y => a4 a b ((key f pf a).1 x) ((key g pg b).1 y)⟩⟩

/-- What the comparison says of two header values as they are read. -/
def compareTexts (a b : String) : Option Int := do
  let (i, f) ← osip_from_parse sscanf2 (Str.buf a.toList)
  let (j, g) ← osip_from_parse sscanf2 (Str.buf b.toList)
  if i = OSIP_SUCCESS ∧ j = OSIP_SUCCESS then return from_compare (some f) (some g) else none

/-- **C129** fails for `osip_from_compare` (src/osipparser2/osip_from.c:433): (1) two headers can be the same as a third and differ from
each other; (2) the tags of addresses which are not SIP addresses are not compared; (3) nor is a tag compared whose name is not in small
letters, though `osip_from_get_tag` finds it; (4) a parameter whose name only starts with `tag` is compared in its place - headers with
different tags are the same and headers with one tag are not; (5) port and scheme are not compared. -/
theorem c129_violated :
    (compareTexts "<sip:b@b.org>;tag=1" "<sip:b@b.org>" = some 0 ∧ compareTexts "<sip:b@b.org>" "<sip:b@b.org>;tag=2" = some 0 ∧
      compareTexts "<sip:b@b.org>;tag=1" "<sip:b@b.org>;tag=2" = some OSIP_UNDEFINED_ERROR) ∧
    compareTexts "<tel:12345>;tag=1" "<tel:12345>;tag=2" = some 0 ∧
    compareTexts "<sip:b@b.org>;Tag=1" "<sip:b@b.org>;Tag=2" = some 0 ∧
    (compareTexts "<sip:b@b.org>;tagged=x;tag=1" "<sip:b@b.org>;tagged=x;tag=2" = some 0 ∧
      compareTexts "<sip:b@b.org>;tagged=x;tag=1" "<sip:b@b.org>;tagged=y;tag=1" = some OSIP_UNDEFINED_ERROR) ∧
    compareTexts "<sip:b@b.org:5060>" "<sips:b@b.org:5070>" = some 0 := by
  decide +kernel

/-- **C129** fails for headers which are not complete or well formed: (1) a tag without value differs from itself; (2) two Via headers with
different hosts have the same text. -/
theorem c129_incomplete_violated :
    from_tag_match (some { gen_params := [⟨"tag".toList, none⟩] }) (some { gen_params := [⟨"tag".toList, none⟩] }) = OSIP_UNDEFINED_ERROR ∧
    via_match (some { version := some "2.0".toList, protocol := some "UDP".toList, host := some "a.b".toList, comment := some "x;y".toList })
      (some { version := some "2.0".toList, protocol := some "UDP".toList, host := some "a.b (x".toList, via_params := [⟨"y)".toList, none⟩] }) = 0 := by
  decide +kernel

/-! ## Examples -/

example : call_id_match (some ⟨some "a".toList, some "b.org".toList⟩) (some ⟨some "a".toList, none⟩) = OSIP_UNDEFINED_ERROR ∧
    cseq_match (some ⟨some "ACK".toList, some "7".toList⟩) (some ⟨some "INVITE".toList, some "7".toList⟩) = 0 ∧
    cseq_match (some ⟨some "BYE".toList, some "7".toList⟩) (some ⟨some "INVITE".toList, some "7".toList⟩) = OSIP_UNDEFINED_ERROR ∧
    from_tag_match (some { gen_params := [⟨"x".toList, none⟩, ⟨"TAG".toList, some "1".toList⟩] })
      (some { gen_params := [⟨"tag".toList, some "1".toList⟩] }) = 0 := by decide +kernel

/-- Two Via headers with all parts, which differ in one parameter. -/
example : via_match (some {
        version := some "2.0".toList, protocol := some "UDP".toList, host := some "::1".toList, port := some "5060".toList,
        via_params := [⟨"branch".toList, some "z9hG4bK1".toList⟩] })
      (some {
        version := some "2.0".toList, protocol := some "UDP".toList, host := some "::1".toList, port := some "5060".toList,
        via_params := [⟨"branch".toList, some "z9hG4bK2".toList⟩] }) = OSIP_UNDEFINED_ERROR := by decide +kernel

/-- `PlainTag` holds for what is read of a header with other parameters. -/
example : PlainTag { gen_params := [⟨"x".toList, none⟩, ⟨"tag".toList, some "1".toList⟩] } ∧
    compareTexts "Bob <sip:b@b.org;lr>;x;tag=1" "\"B\" <sip:b@b.org>;tag=1" = some 0 ∧
    compareTexts "Bob <sip:b@b.org;lr>;x;tag=1" "<sip:b@b.org>;tag=2" = some OSIP_UNDEFINED_ERROR ∧
    compareTexts "<sip:b@b.org>" "<sip:c@b.org>" = some OSIP_UNDEFINED_ERROR := by
  refine ⟨?_, ?_⟩
  · unfold PlainTag; decide +kernel
  · decide +kernel

end Osip
