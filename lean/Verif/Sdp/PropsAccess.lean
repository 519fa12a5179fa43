import Verif.Sdp.Access

/-!
# Session descriptions: the accessors

C97: adding to a session or to a media changes that place only, and what was added is found; violated for
indices below -1 and for `INT_MAX`. C98: deleting attributes and payloads; violated for an index into the
attributes of a media.
-/

set_option autoImplicit false

namespace Osip.Sdp

open Osip

/-! ## Lists -/

theorem listGet_mid {α : Type} (pre : List α) (m : α) (post : List α) : listGet (pre ++ m :: post) (pre.length : Int) = some m := by
  rw [listGet, if_neg (by simp; omega)]
  simp

theorem listGet_cases {α : Type} (l : List α) (pos : Int) :
    (∃ pre m post, l = pre ++ m :: post ∧ (pre.length : Int) = pos ∧ listGet l pos = some m) ∨
      ((pos < 0 ∨ (l.length : Int) ≤ pos) ∧ listGet l pos = none) := by
  by_cases h : pos < 0 ∨ pos ≥ l.length
  · exact .inr ⟨h, by rw [listGet, if_pos h]⟩
  · have hl : pos.toNat < l.length := by omega
    refine .inl ⟨l.take pos.toNat, l[pos.toNat], l.drop (pos.toNat + 1), ?_, ?_, ?_⟩
    · simp
    · simp; omega
    · rw [listGet, if_neg h]; simp [hl]

theorem modify_mid {α : Type} (pre : List α) (m : α) (post : List α) (f : α → α) :
    (pre ++ m :: post).modify ((pre.length : Int)).toNat f = pre ++ f m :: post := by
  rw [Int.toNat_natCast]
  induction pre with
  | nil => rfl
  | cons x pre ih => simpa using ih

theorem listRemove_mid {α : Type} (pre : List α) (m : α) (post : List α) :
    listRemove (pre ++ m :: post) (pre.length : Int) = pre ++ post := by
  rw [listRemove, if_neg (by simp; omega)]
  simp [List.eraseIdx_append_of_length_le]

/-! ## C97: adding -/

/-- A function that adds something: at index -1 to the session, at another index to that media and to
nothing else; without such a media it fails and changes nothing. -/
def AddsTo (f : Option Session → Int → Option (Int × Option Session)) (session : Session → Session) (media : Media → Media) : Prop :=
  ∀ s pos, -1 ≤ pos → pos < 2147483647 →
    (pos = -1 ∧ f (some s) pos = some (0, some (session s))) ∨
    (∃ pre m post, s.medias = pre ++ m :: post ∧ (pre.length : Int) = pos ∧
      f (some s) pos = some (0, some { s with medias := pre ++ media m :: post })) ∨
    ((s.medias.length : Int) ≤ pos ∧ f (some s) pos = some (-1, some s))

theorem addAt_spec (session : Session → Session) (media : Media → Media) : AddsTo (addAt (-1) session media) session media := by
  intro s pos h1 h2
  by_cases h : pos = -1
  · subst h
    exact .inl ⟨rfl, rfl⟩
  have hm : mediaMissing s pos = some (decide ((s.medias.length : Int) < pos + 1)) := by
    rw [mediaMissing, if_neg h, if_neg (by omega)]
  rcases listGet_cases s.medias pos with ⟨pre, m, post, e, hp, hg⟩ | ⟨hp, -⟩
  · refine .inr (.inl ⟨pre, m, post, e, hp, ?_⟩)
    have hlt : ¬ (s.medias.length : Int) < pos + 1 := by rw [e]; simp; omega
    simp only [addAt, hm, Option.bind_eq_bind, Option.bind_some, decide_eq_true_eq, if_neg hlt, if_neg h, hg, changeMedia]
    rw [e, ← hp, modify_mid]
    rfl
  · refine .inr (.inr ⟨by omega, ?_⟩)
    have hlt : (s.medias.length : Int) < pos + 1 := by omega
    simp [addAt, hm, hlt]

/-- **C97** (partial): connections, bandwidths, keys and attributes are added to the session or to the media
with that index, and nothing else is changed; without such a media nothing is changed. Missing: indices below -1
and `INT_MAX`. -/
theorem c97_add_partial (c : Connection) (b : Bandwidth) (k : Key) (a : Attribute) :
    AddsTo (c_connection_add · · c) (fun s => { s with connection := some c }) (fun m => { m with connections := m.connections ++ [c] }) ∧
    AddsTo (b_bandwidth_add · · b) (fun s => { s with bandwidths := s.bandwidths ++ [b] }) (fun m => { m with bandwidths := m.bandwidths ++ [b] }) ∧
    AddsTo (k_key_set · · k) (fun s => { s with key := some k }) (fun m => { m with key := some k }) ∧
    AddsTo (a_attribute_add · · a) (fun s => { s with attributes := s.attributes ++ [a] }) (fun m => { m with attributes := m.attributes ++ [a] }) :=
  ⟨addAt_spec _ _, addAt_spec _ _, addAt_spec _ _, addAt_spec _ _⟩

/-- **C97 is violated**: for every session and every index below -1, and for `INT_MAX`, these functions and
the functions that read a key are undefined. -/
theorem c97_violated (s : Session) (pos : Int) (h : pos < -1 ∨ pos = 2147483647) (c : Connection) (b : Bandwidth) (k : Key) (a : Attribute) :
    c_connection_add (some s) pos c = none ∧ b_bandwidth_add (some s) pos b = none ∧ k_key_set (some s) pos k = none ∧
      a_attribute_add (some s) pos a = none ∧ key_get (some s) pos = none := by
  have hp : pos ≠ -1 := by omega
  have key : ∀ (code : Int) f g, addAt code f g (some s) pos = none := by
    intro code f g
    rcases h with h | h
    · have hm : mediaMissing s pos = some (decide ((s.medias.length : Int) < pos + 1)) := by
        rw [mediaMissing, if_neg hp, if_neg (by omega)]
      have hlt : ¬ (s.medias.length : Int) < pos + 1 := by omega
      have hg : listGet s.medias pos = none := by rw [listGet, if_pos (.inl (by omega))]
      simp [addAt, hm, hlt, hp, hg]
    · have hm : mediaMissing s pos = none := by rw [mediaMissing, if_neg hp, if_pos h]
      simp [addAt, hm]
  refine ⟨key _ _ _, key _ _ _, key _ _ _, key _ _ _, ?_⟩
  rcases h with h | h
  · have hm : mediaMissing s pos = some (decide ((s.medias.length : Int) < pos + 1)) := by
      rw [mediaMissing, if_neg hp, if_neg (by omega)]
    have hlt : ¬ (s.medias.length : Int) < pos + 1 := by omega
    have hg : listGet s.medias pos = none := by rw [listGet, if_pos (.inl (by omega))]
    simp [key_get, hm, hlt, hp, hg]
  · have hm : mediaMissing s pos = none := by rw [mediaMissing, if_neg hp, if_pos h]
    simp [key_get, hm, hp]

/-- **C97 is violated** in a second way: the functions for media use the session without a test for null,
which the other functions make. -/
theorem c97_null (pos k : Int) (x : Option Str) (y : Str) :
    m_media_add none x x x x = none ∧ m_media_get none pos = none ∧ m_port_set none pos x = none ∧ m_payload_add none pos y = none ∧
      m_payload_get none pos k = none ∧ m_payload_del none pos k = none ∧
      a_attribute_add none pos ⟨x, x⟩ = some (-2, none) ∧ attribute_get none pos k = none := ⟨rfl, rfl, rfl, rfl, rfl, rfl, rfl, rfl⟩

/-! ## What was added is found -/

/-- Reading by media and index: behind an addition the new element is found at the next index, and nothing else
has changed. -/
def Found {α : Type} (get : Session → Int → Int → Option α) (s s' : Session) (pos : Int) (a : α) : Prop :=
  ∃ n, get s' pos n = some a ∧ get s pos n = none ∧ (∀ k, k ≠ n → get s' pos k = get s pos k) ∧
    ∀ q k, q ≠ pos → get s' q k = get s q k

theorem listGet_append {α : Type} (l : List α) (a : α) (k : Int) :
    listGet (l ++ [a]) k = if k = l.length then some a else listGet l k := by
  split
  · subst k; exact listGet_mid l a []
  · rcases listGet_cases l k with ⟨pre, m, post, e, hp, hg⟩ | ⟨hp, hg⟩
    · rw [hg, e, ← hp, List.append_assoc, List.cons_append, listGet_mid]
    · rw [hg, listGet, if_pos (by simp; omega)]

theorem listGet_other {α : Type} (pre : List α) (m m' : α) (post : List α) (q : Int) (h : q ≠ pre.length) :
    listGet (pre ++ m' :: post) q = listGet (pre ++ m :: post) q := by
  unfold listGet
  have e : (pre ++ m' :: post).length = (pre ++ m :: post).length := by simp
  rw [e]
  split
  · rfl
  · rename_i hq
    by_cases h2 : q.toNat < pre.length
    · rw [List.getElem?_append_left h2, List.getElem?_append_left h2]
    · rw [List.getElem?_append_right (by omega), List.getElem?_append_right (by omega)]
      obtain ⟨d, hd⟩ : ∃ d, q.toNat - pre.length = d + 1 := ⟨q.toNat - pre.length - 1, by omega⟩
      rw [hd]
      simp

theorem found_of {α : Type} {f : Option Session → Int → Option (Int × Option Session)} {session : Session → Session}
    {media : Media → Media} (hf : AddsTo f session media) {sl : Session → List α} {ml : Media → List α} {a : α}
    (h1 : ∀ s, sl (session s) = sl s ++ [a] ∧ (session s).medias = s.medias) (h2 : ∀ m, ml (media m) = ml m ++ [a])
    (h3 : ∀ (s : Session) ms, sl { s with medias := ms } = sl s)
    (s s' : Session) (pos : Int) (hp : -1 ≤ pos) (hq : pos < 2147483647) (h : f (some s) pos = some (0, some s')) :
    Found (fun s p k => getAt (fun s => listGet (sl s) k) (fun m => listGet (ml m) k) (some s) p) s s' pos a := by
  rcases hf s pos hp hq with ⟨rfl, e⟩ | ⟨pre, m, post, em, rfl, e⟩ | ⟨-, e⟩
  · rw [h] at e
    cases e
    refine ⟨(sl s).length, ?_, ?_, ?_, ?_⟩
    · simp [getAt, (h1 s).1, listGet_append]
    · simp [getAt, listGet]
    · intro k hk
      simp [getAt, (h1 s).1, listGet_append, hk]
    · intro q k hk
      simp [getAt, hk, (h1 s).2]
  · rw [h] at e
    cases e
    have hn : (pre.length : Int) ≠ -1 := by omega
    refine ⟨(ml m).length, ?_, ?_, ?_, ?_⟩
    · simp [getAt, listGet_mid, h2, listGet_append, hn]
    · simp [getAt, em, listGet_mid, hn]
      simp [listGet]
    · intro k hk
      simp [getAt, em, listGet_mid, h2, listGet_append, hk, hn]
    · intro q k hk
      simp only [getAt, Option.bind_some, h3, em]
      rw [listGet_other pre m (media m) post q hk]
  · rw [h] at e; cases e

/-- **C97**: an attribute or a bandwidth that was added is found behind the others of its place, and all
others are found as before. -/
theorem c97_found (s s' : Session) (pos : Int) (hp : -1 ≤ pos) (hq : pos < 2147483647) :
    (∀ a, a_attribute_add (some s) pos a = some (0, some s') → Found (fun s => attribute_get (some s)) s s' pos a) ∧
    (∀ b, b_bandwidth_add (some s) pos b = some (0, some s') → Found (fun s => bandwidth_get (some s)) s s' pos b) := by
  constructor
  · intro a h
    exact found_of (c97_add_partial {} {} {} a).2.2.2 (fun s => ⟨rfl, rfl⟩) (fun m => rfl) (fun s ms => rfl) s s' pos hp hq h
  · intro b h
    exact found_of (c97_add_partial {} b {} {}).2.1 (fun s => ⟨rfl, rfl⟩) (fun m => rfl) (fun s ms => rfl) s s' pos hp hq h

/-- **C97**: a key that was set is found, and the keys of all other places are as before. -/
theorem c97_key (s s' : Session) (pos : Int) (hp : -1 ≤ pos) (hq : pos < 2147483647) (k : Key)
    (h : k_key_set (some s) pos k = some (0, some s')) :
    key_get (some s') pos = some (some k) ∧ ∀ q, q ≠ pos → key_get (some s') q = key_get (some s) q := by
  rcases addAt_spec _ _ s pos hp hq with ⟨rfl, e⟩ | ⟨pre, m, post, em, rfl, e⟩ | ⟨-, e⟩
  · unfold k_key_set at h
    rw [show OSIP_UNDEFINED_ERROR = -1 from rfl] at h
    rw [h] at e
    cases e
    refine ⟨by simp [key_get], fun q hq => ?_⟩
    simp [key_get, hq, mediaMissing]
  · unfold k_key_set at h
    rw [show OSIP_UNDEFINED_ERROR = -1 from rfl] at h
    rw [h] at e
    cases e
    have hn : (pre.length : Int) ≠ -1 := by omega
    have hn2 : (pre.length : Int) ≠ 2147483647 := by omega
    refine ⟨?_, fun q hq => ?_⟩
    · have : ¬ ((pre.length : Int) + ((post.length : Int) + 1) < pre.length + 1) := by omega
      simp [key_get, hn, mediaMissing, hn2, listGet_mid, this]
    · simp only [key_get, mediaMissing, em]
      rw [listGet_other pre m _ post q hq]
      simp
  · unfold k_key_set at h
    rw [show OSIP_UNDEFINED_ERROR = -1 from rfl] at h
    rw [h] at e; cases e

/-- A description with two media. -/
def twoMedia : Session := { medias := [{ media := some ['a'] }, { media := some ['b'], attributes := [⟨some ['x'], none⟩] }] }

example : a_attribute_add (some twoMedia) 1 ⟨some ['y'], none⟩ = some (0, some { medias := [{ media := some ['a'] },
    { media := some ['b'], attributes := [⟨some ['x'], none⟩, ⟨some ['y'], none⟩] }] }) ∧
    a_attribute_add (some twoMedia) 2 ⟨some ['y'], none⟩ = some (-1, some twoMedia) ∧
    a_attribute_add (some twoMedia) (-2) ⟨some ['y'], none⟩ = none := by decide +kernel

/-- **C97**: the information is set in the session for index -1, in the media with the index otherwise, and nothing else is changed; without
such a media it fails and changes nothing. Here every index is defined. -/
theorem c97_info (s : Session) (pos : Int) (info : Option Str) :
    (pos = -1 ∧ i_info_set (some s) pos info = (0, some { s with info := info })) ∨
    (pos ≠ -1 ∧ ∃ pre m post, s.medias = pre ++ m :: post ∧ (pre.length : Int) = pos ∧
      i_info_set (some s) pos info = (0, some { s with medias := pre ++ { m with info := info } :: post })) ∨
    (pos ≠ -1 ∧ (pos < 0 ∨ (s.medias.length : Int) ≤ pos) ∧ ∃ i, i < 0 ∧ i_info_set (some s) pos info = (i, some s)) := by
  by_cases h : pos = -1
  · exact .inl ⟨h, by simp [i_info_set, h, OSIP_SUCCESS]⟩
  · rcases listGet_cases s.medias pos with ⟨pre, m, post, e, rfl, hg⟩ | ⟨hp, hg⟩
    · refine .inr (.inl ⟨h, pre, m, post, e, rfl, ?_⟩)
      simp only [i_info_set, if_neg h, hg, Option.isNone_some, changeMedia]
      rw [e, modify_mid]
      rfl
    · exact .inr (.inr ⟨h, hp, OSIP_UNDEFINED_ERROR, by decide, by simp [i_info_set, h, hg]⟩)

/-- **C97**: a time, a media or a payload that was added is found behind the others, a port that was set is found, and all others are found as
before. -/
theorem c97_parts (s : Session) :
    (∀ a b s', t_time_descr_add (some s) a b = (0, some s') → { s' with times := s.times } = s ∧
      (∀ k, listGet s'.times k = if k = s.times.length then some ⟨a, b, []⟩ else listGet s.times k)) ∧
    (∀ pos f s', r_repeat_add (some s) pos f = (0, some s') → { s' with times := s.times } = s ∧
      Found (fun s => r_repeat_get (some s)) s s' pos f ∧
      ∀ k, (listGet s'.times k).map (fun t => (t.start, t.stop)) = (listGet s.times k).map (fun t => (t.start, t.stop))) ∧
    (∀ a b c d s', m_media_add (some s) a b c d = some (0, s') → { s' with medias := s.medias } = s ∧
      (∀ k, m_media_get (some s') k = if k = s.medias.length then
        some (some { media := a, port := b, number := c, proto := d }) else m_media_get (some s) k)) ∧
    (∀ pos f s', m_payload_add (some s) pos f = some (0, s') → { s' with medias := s.medias } = s ∧
      Found (fun s p k => (m_payload_get (some s) p k).join) s s' pos f ∧
      ∀ k, (m_media_get (some s') k).join.map (fun m => { m with payloads := [] }) =
        (m_media_get (some s) k).join.map (fun m => { m with payloads := [] })) ∧
    (∀ pos f s', m_port_set (some s) pos f = some (0, s') → { s' with medias := s.medias } = s ∧
      ∀ k, m_media_get (some s') k = some ((listGet s.medias k).map fun m => if k = pos then { m with port := f } else m)) := by
  refine ⟨?_, ?_, ?_, ?_, ?_⟩
  · intro a b s' h
    simp [t_time_descr_add] at h
    rw [← h.2]
    exact ⟨rfl, fun k => listGet_append _ _ _⟩
  · intro pos f s' h
    rcases listGet_cases s.times pos with ⟨pre, t, post, e, rfl, hg⟩ | ⟨-, hg⟩
    · simp [r_repeat_add, hg] at h
      obtain ⟨-, rfl⟩ := h
      rw [show pre.length = ((pre.length : Int)).toNat by simp, e, modify_mid]
      refine ⟨by rw [← e], ⟨t.repeats.length, ?_, ?_, ?_, ?_⟩, ?_⟩
      · simp [r_repeat_get, listGet_mid, listGet_append]
      · simp [r_repeat_get, e, listGet_mid]; simp [listGet]
      · intro k hk; simp [r_repeat_get, e, listGet_mid, listGet_append, hk]
      · intro q k hq; simp only [r_repeat_get, Option.bind_some, e]; rw [listGet_other pre t _ post q hq]
      · intro k
        by_cases hk : k = pre.length
        · subst hk; simp [listGet_mid]
        · rw [listGet_other pre t _ post k hk]
    · simp [r_repeat_add, hg, OSIP_UNDEFINED_ERROR] at h
  · intro a b c d s' h
    simp [m_media_add] at h
    rw [← h.2]
    refine ⟨rfl, fun k => ?_⟩
    simp only [m_media_get, Option.map_some, listGet_append]
    split <;> rfl
  · intro pos f s' h
    rcases listGet_cases s.medias pos with ⟨pre, m, post, e, rfl, hg⟩ | ⟨-, hg⟩
    · simp [m_payload_add, hg, changeMedia] at h
      obtain ⟨-, rfl⟩ := h
      rw [show pre.length = ((pre.length : Int)).toNat by simp, e, modify_mid]
      refine ⟨by rw [← e], ⟨m.payloads.length, ?_, ?_, ?_, ?_⟩, ?_⟩
      · simp [m_payload_get, listGet_mid, listGet_append]
      · simp [m_payload_get, e, listGet_mid]; simp [listGet]
      · intro k hk; simp [m_payload_get, e, listGet_mid, listGet_append, hk]
      · intro q k hq; simp only [m_payload_get, Option.map_some, e]; rw [listGet_other pre m _ post q hq]
      · intro k
        simp only [m_media_get, Option.map_some, e]
        by_cases hk : k = pre.length
        · subst hk; simp [listGet_mid]
        · rw [listGet_other pre m _ post k hk]
    · simp [m_payload_add, hg, OSIP_BADPARAMETER] at h
  · intro pos f s' h
    rcases listGet_cases s.medias pos with ⟨pre, m, post, e, rfl, hg⟩ | ⟨-, hg⟩
    · simp [m_port_set, hg, changeMedia] at h
      obtain ⟨-, rfl⟩ := h
      rw [show pre.length = ((pre.length : Int)).toNat by simp, e, modify_mid]
      refine ⟨by rw [← e], fun k => ?_⟩
      simp only [m_media_get, Option.map_some]
      by_cases hk : k = pre.length
      · subst hk; simp [listGet_mid]
      · rw [listGet_other pre m _ post k hk]; simp [hk]
    · simp [m_port_set, hg, OSIP_BADPARAMETER] at h

example : (r_repeat_add (some { times := [⟨none, none, [['a']]⟩] }) 0 ['b']).2.map (fun s => r_repeat_get (some s) 0 1) = some (some ['b']) ∧
    (m_payload_add (some { medias := [{ payloads := [['0']] }] }) 0 ['8']).map (fun x => m_payload_get (some x.2) 0 1) = some (some (some ['8'])) := by
  decide +kernel

/-! ## C98: deleting -/

theorem turns_done {f : Int → List Attribute → Option Turn} {n k : Nat} {i : Int} {l r : List Attribute}
    (h : turns f n i l = some (.done r)) (hk : n ≤ k) : turns f k i l = some (.done r) := by
  induction n generalizing k i l with
  | zero => simp [turns] at h
  | succ n ih =>
    obtain ⟨k, rfl⟩ : ∃ j, k = j + 1 := ⟨k - 1, by omega⟩
    rw [turns] at h ⊢
    cases hf : f i l with
    | none => simp [hf] at h
    | some t =>
      cases t with
      | again i l =>
        simp only [hf, Option.bind_eq_bind, Option.bind_some] at h ⊢
        exact ih h (by omega)
      | done l => simpa [hf] using h

theorem delTurns (x : Str) (done l : List Attribute) (hl : ∀ a ∈ l, a.field ≠ none) :
    turns (delTurn (some x)) (l.length + 1) (done.length : Int) (done ++ l) =
      some (.done (done ++ l.filter fun a => a.field != some x)) := by
  induction l generalizing done with
  | nil => simp [turns, delTurn]
  | cons a l ih =>
    obtain ⟨y, hy⟩ := Option.ne_none_iff_exists'.1 (hl a (List.mem_cons_self ..))
    have hl2 : ∀ a ∈ l, a.field ≠ none := fun b m => hl b (List.mem_cons_of_mem _ m)
    rw [List.length_cons, turns, delTurn, if_pos (by simp; omega)]
    simp only [listGet_mid, listRemove_mid, hy, same, Option.bind_eq_bind, Option.bind_some]
    by_cases h : y = x
    · subst h
      simpa [hy] using ih done hl2
    · have := ih (done ++ [a]) hl2
      simpa [hy, h] using this

theorem delAt_eq (x : Option Str) : delAtTurn x (-1) = delTurn x := by
  funext i l
  unfold delAtTurn delTurn
  split <;> rfl

/-- **C98**: deleting by name, in the session or in a media, removes exactly the attributes with the name and
keeps the others in their order. The loop ends after at most as many turns as there are attributes, and one. -/
theorem c98_by_name (s : Session) (x : Str) :
    ((∀ a ∈ s.attributes, a.field ≠ none) → ∀ n, s.attributes.length < n →
      a_attribute_del n (some s) (-1) (some x) =
        some (.returned 0 (some { s with attributes := s.attributes.filter fun a => a.field != some x }))) ∧
    (∀ pre m post, s.medias = pre ++ m :: post → (pre.length : Int) < 2147483647 → (∀ a ∈ m.attributes, a.field ≠ none) →
      ∀ n, m.attributes.length < n → a_attribute_del n (some s) pre.length (some x) =
        some (.returned 0 (some { s with medias := pre ++ { m with attributes := m.attributes.filter fun a => a.field != some x } :: post }))) := by
  constructor
  · intro h n hn
    have := turns_done (delTurns x [] s.attributes h) (k := n) hn
    simp only [List.length_nil, List.nil_append, Int.ofNat_zero] at this
    simp only [a_attribute_del, mediaMissing, if_true, Option.bind_eq_bind, Option.bind_some]
    exact congrArg (fun y => finish y fun l => { s with attributes := l }) this
  · intro pre m post e hp h n hn
    have := turns_done (delTurns x [] m.attributes h) (k := n) hn
    simp only [List.length_nil, List.nil_append, Int.ofNat_zero] at this
    have h1 : (pre.length : Int) ≠ -1 := by omega
    have h2 : (pre.length : Int) ≠ 2147483647 := by omega
    have h3 : ¬ ((s.medias.length : Int) < pre.length + 1) := by rw [e]; simp; omega
    simp only [a_attribute_del, mediaMissing, if_neg h1, if_neg h2, h3, decide_false, Option.bind_eq_bind, Option.bind_some]
    rw [e, listGet_mid]
    refine (congrArg (fun y => finish y fun l => changeMedia s pre.length fun m => { m with attributes := l }) this).trans ?_
    simp only [finish, Option.map_some, changeMedia, e, modify_mid]
    rfl

/-- **C98**: deleting at an index of the session removes exactly the attribute there; without one nothing is
removed. -/
theorem c98_at_index (s : Session) (x : Option Str) (n : Nat) :
    (∀ pre a post, s.attributes = pre ++ a :: post → a_attribute_del_at_index n (some s) (-1) x pre.length =
      some (.returned 0 (some { s with attributes := pre ++ post }))) ∧
    (∀ k, (k < -1 ∨ (s.attributes.length : Int) ≤ k) →
      a_attribute_del_at_index n (some s) (-1) x k = some (.returned 0 (some s))) := by
  constructor
  · intro pre a post e
    have h1 : (pre.length : Int) ≠ -1 := by omega
    simp only [a_attribute_del_at_index, mediaMissing, if_true, Option.bind_eq_bind, Option.bind_some, if_neg h1, e, listRemove_mid]
    rfl
  · intro k hk
    have h1 : k ≠ -1 := by omega
    have h2 : listRemove s.attributes k = s.attributes := by rw [listRemove, if_pos (by omega)]
    simp only [a_attribute_del_at_index, mediaMissing, if_true, Option.bind_eq_bind, Option.bind_some, if_neg h1, h2]
    rfl

theorem delAtTurns_all (x : Option Str) (l : List Attribute) : turns (delAtTurn x 0) (l.length + 1) 0 l = some (.done []) := by
  induction l with
  | nil => simp [turns, delAtTurn]
  | cons a l ih =>
    have h1 := listGet_mid [] a l
    have h2 := listRemove_mid [] a l
    simp only [List.length_nil, List.nil_append, Int.ofNat_zero] at h1 h2
    rw [List.length_cons, turns, delAtTurn, if_pos (by simp), if_neg (by decide), h1, h2]
    simpa using ih

/-- The loop over the attributes of a media does not end while there are attributes and the index is not 0. -/
theorem delAtTurns_running (x : Option Str) (k : Int) (h1 : k ≠ -1) (h0 : k ≠ 0) (n : Nat) (l : List Attribute) (hl : l ≠ []) :
    ∃ r, turns (delAtTurn x k) n 0 l = some (.again 0 r) := by
  induction n generalizing l with
  | zero => exact ⟨l, rfl⟩
  | succ n ih =>
    have hpos : (0 : Int) < l.length := by have := List.length_pos_iff.2 hl; omega
    rw [turns, delAtTurn, if_pos hpos, if_neg h1]
    rcases listGet_cases l k with ⟨pre, a, post, e, hp, hg⟩ | ⟨-, hg⟩
    · rw [hg]
      have hr : listRemove l k = pre ++ post := by rw [e, ← hp, listRemove_mid]
      have hne : pre ++ post ≠ [] := by
        cases pre with
        | nil => simp at hp; omega
        | cons => simp
      simp only [hr, Option.isSome_some, if_true, Option.bind_eq_bind, Option.bind_some]
      exact ih _ hne
    · rw [hg]
      exact ih l hl

theorem del_at_media (s : Session) (pre : List Media) (m : Media) (post : List Media) (e : s.medias = pre ++ m :: post)
    (hp : (pre.length : Int) < 2147483647) (x : Option Str) (k : Int) (n : Nat) :
    a_attribute_del_at_index n (some s) pre.length x k = finish (turns (delAtTurn x k) n 0 m.attributes) fun l =>
      { s with medias := pre ++ { m with attributes := l } :: post } := by
  have h1 : (pre.length : Int) ≠ -1 := by omega
  have h2 : (pre.length : Int) ≠ 2147483647 := by omega
  have h3 : ¬ ((s.medias.length : Int) < pre.length + 1) := by rw [e]; simp; omega
  simp only [a_attribute_del_at_index, mediaMissing, if_neg h1, if_neg h2, h3, decide_false, Option.bind_eq_bind, Option.bind_some]
  rw [e, listGet_mid]
  simp only [changeMedia, e, modify_mid]
  rfl

/-- **C98 is violated** in a media: deleting the first attribute deletes all of them. -/
theorem c98_violated (s : Session) (pre : List Media) (m : Media) (post : List Media) (e : s.medias = pre ++ m :: post)
    (hp : (pre.length : Int) < 2147483647) (x : Option Str) (n : Nat) (hn : m.attributes.length < n) :
    a_attribute_del_at_index n (some s) pre.length x 0 =
      some (.returned 0 (some { s with medias := pre ++ { m with attributes := [] } :: post })) := by
  rw [del_at_media s pre m post e hp, turns_done (delAtTurns_all x m.attributes) hn]
  rfl

/-- **C98 is violated** in a media: with any other index than 0 and -1 the function does not return if there
is an attribute. -/
theorem c98_hangs (s : Session) (pre : List Media) (m : Media) (post : List Media) (e : s.medias = pre ++ m :: post)
    (hp : (pre.length : Int) < 2147483647) (x : Option Str) (k : Int) (h1 : k ≠ -1) (h0 : k ≠ 0) (hm : m.attributes ≠ []) (n : Nat) :
    a_attribute_del_at_index n (some s) pre.length x k = some .running := by
  rw [del_at_media s pre m post e hp]
  obtain ⟨r, hr⟩ := delAtTurns_running x k h1 h0 n m.attributes hm
  rw [hr]
  rfl

/-- **C98**: deleting a payload removes exactly the one with that index of that media; otherwise nothing is changed. -/
theorem c98_payload (s : Session) (pos k : Int) :
    (∃ pre m post p x q, s.medias = pre ++ m :: post ∧ (pre.length : Int) = pos ∧ m.payloads = p ++ x :: q ∧ (p.length : Int) = k ∧
      m_payload_del (some s) pos k = some (0, { s with medias := pre ++ { m with payloads := p ++ q } :: post })) ∨
    (m_payload_get (some s) pos k = some none ∧ ∃ i, i < 0 ∧ m_payload_del (some s) pos k = some (i, s)) := by
  rcases listGet_cases s.medias pos with ⟨pre, m, post, e, rfl, hg⟩ | ⟨-, hg⟩
  · rcases listGet_cases m.payloads k with ⟨p, x, q, e2, rfl, hg2⟩ | ⟨-, hg2⟩
    · refine .inl ⟨pre, m, post, p, x, q, e, rfl, e2, rfl, ?_⟩
      have e3 : m_payload_del (some s) pre.length p.length =
          some (0, changeMedia s pre.length fun m => { m with payloads := listRemove m.payloads p.length }) := by
        simp [m_payload_del, hg, hg2, OSIP_SUCCESS]
      rw [e3, changeMedia, e, modify_mid, e2, listRemove_mid]
    · refine .inr ⟨by simp [m_payload_get, hg, hg2], OSIP_UNDEFINED_ERROR, by decide, ?_⟩
      simp [m_payload_del, hg, hg2]
  · refine .inr ⟨by simp [m_payload_get, hg], OSIP_BADPARAMETER, by decide, ?_⟩
    simp [m_payload_del, hg]

/-- Deleting by name and by index in a session and in a media. -/
example :
    let attrs : List Attribute := [⟨some ['x'], none⟩, ⟨some ['y'], none⟩, ⟨some ['x'], some ['1']⟩]
    let s : Session := { attributes := attrs, medias := [{ attributes := attrs }] }
    a_attribute_del 9 (some s) (-1) (some ['x']) = some (.returned 0 (some { s with attributes := [⟨some ['y'], none⟩] })) ∧
    a_attribute_del_at_index 9 (some s) (-1) none 0 = some (.returned 0 (some { s with attributes := attrs.drop 1 })) ∧
    a_attribute_del_at_index 9 (some s) 0 none 0 = some (.returned 0 (some { s with medias := [{}] })) ∧
    a_attribute_del_at_index 9 (some s) 0 none 1 = some .running := by
  decide +kernel

/-- Deleting a payload. -/
example : m_payload_del (some { medias := [{ payloads := [['0'], ['8'], ['3']] }] }) 0 1 =
    some (0, { medias := [{ payloads := [['0'], ['3']] }] }) := by decide +kernel

end Osip.Sdp
