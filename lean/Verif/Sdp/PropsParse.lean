import Verif.Sdp.PropsLine

/-!
# Session descriptions: reading stays in the text, and what it stores

C92: `sdp_message_parse` reads inside the text for every text that does not end with a bare media line;
for such a text it reads behind the terminator. C93: what is stored by a successful reading.
-/

set_option autoImplicit false

namespace Osip.Sdp

open Osip

/-! ## What is stored -/

/-- A time description that can be written. -/
def WfTime (t : TimeDescr) : Prop := WfTimeLine t ∧ ∀ x ∈ t.repeats, Text x

/-- A media that can be written. -/
structure WfMedia (m : Media) : Prop where
  line : WfMediaLine m
  info : ∀ x, m.info = some x → Text x
  connections : ∀ c ∈ m.connections, WfConnection c
  bandwidths : ∀ b ∈ m.bandwidths, WfBandwidth b
  attributes : ∀ a ∈ m.attributes, WfPair a.field a.value
  key : ∀ k, m.key = some k → WfPair k.keytype k.keydata

/-- Every member that is set can stand in its line. -/
structure Fields (s : Session) : Prop where
  version : ∀ x, s.version = some x → Text x
  username : ∀ x, s.username = some x → Word ' ' x
  sess_id : ∀ x, s.sess_id = some x → Word ' ' x
  sess_version : ∀ x, s.sess_version = some x → Word ' ' x
  nettype : ∀ x, s.nettype = some x → Word ' ' x
  addrtype : ∀ x, s.addrtype = some x → Word ' ' x
  addr : ∀ x, s.addr = some x → Text x
  name : ∀ x, s.name = some x → Text x
  info : ∀ x, s.info = some x → Text x
  uri : ∀ x, s.uri = some x → Text x
  emails : ∀ x ∈ s.emails, Text x
  phones : ∀ x ∈ s.phones, Text x
  connection : ∀ c, s.connection = some c → WfConnection c
  bandwidths : ∀ b ∈ s.bandwidths, WfBandwidth b
  times : ∀ t ∈ s.times, WfTime t
  zone : ∀ x, s.zone = some x → Text x
  key : ∀ k, s.key = some k → WfPair k.keytype k.keydata
  attributes : ∀ a ∈ s.attributes, WfPair a.field a.value
  medias : ∀ m ∈ s.medias, WfMedia m

/-- The `o` line is there. -/
def Origin (s : Session) : Prop :=
  s.username ≠ none ∧ s.sess_id ≠ none ∧ s.sess_version ≠ none ∧ s.nettype ≠ none ∧ s.addrtype ≠ none ∧ s.addr ≠ none

/-- A session that can be written and read back. -/
def WfSession (s : Session) : Prop := Fields s ∧ s.version ≠ none ∧ Origin s ∧ s.times ≠ []

/-- The invariant: what is known under the conditions `b`, `v`, `o`, `t`. -/
def Known (b v o t : Prop) (s : Session) : Prop :=
  (b → Fields s) ∧ (v → s.version ≠ none) ∧ (o → Origin s) ∧ (t → s.times ≠ [])

/-! ## Parts of the parser -/

/-- A pointer behind the first byte of the text. -/
def At (block p : List Char) : Prop := ∃ pre, pre ≠ [] ∧ block = pre ++ p ∧ NUL ∈ p

/-- What a line parser does; outside of `T` it may be undefined. -/
def PSpec (T : Prop) (block : List Char) (f : Parser) (I J : Session → Prop) : Prop :=
  ∀ s p, At block p → I s → (¬ T ∧ f s p = none) ∨ ∃ i s' q, f s p = some (i, s', q) ∧
    (i = -1 ∨ (i = 0 ∧ s' = s ∧ q = p) ∨ (i = 1 ∧ J s' ∧ At block q ∧ q.length < p.length))

/-- The outcome of a part; the pointer is not moved back. -/
def Out3 (T : Prop) (block : List Char) (n : Nat) (J F : Session → Prop) (x : Option Step) : Prop :=
  (¬ T ∧ x = none) ∨ (∃ s', x = some (.stop (-1) s')) ∨ (∃ s', x = some (.stop 0 s') ∧ F s') ∨
    (∃ s' q, x = some (.go s' q) ∧ J s' ∧ At block q ∧ q.length ≤ n)

def Spec (T : Prop) (block : List Char) (f : Part) (I J F : Session → Prop) : Prop :=
  ∀ s p, At block p → I s → Out3 T block p.length J F (f s p)

section

variable {T : Prop} {block : List Char}

theorem out_bad {n : Nat} {J F : Session → Prop} {s : Session} : Out3 T block n J F (some (.stop (-1) s)) := .inr (.inl ⟨s, rfl⟩)

theorem out_stop {n : Nat} {J F : Session → Prop} {s : Session} (h : F s) : Out3 T block n J F (some (.stop 0 s)) :=
  .inr (.inr (.inl ⟨s, rfl, h⟩))

theorem out_go {n : Nat} {J F : Session → Prop} {s : Session} {q : List Char} (h : J s) (ha : At block q) (hl : q.length ≤ n) :
    Out3 T block n J F (some (.go s q)) := .inr (.inr (.inr ⟨s, q, rfl, h, ha, hl⟩))

theorem out_none {n : Nat} {J F : Session → Prop} (h : ¬ T) : Out3 T block n J F none := .inl ⟨h, rfl⟩

theorem out_mono {J F : Session → Prop} {x : Option Step} {n m : Nat} (h : n ≤ m)
    (hx : Out3 T block n J F x) : Out3 T block m J F x := by
  rcases hx with ⟨h, rfl⟩ | ⟨s, rfl⟩ | ⟨s, rfl, hf⟩ | ⟨s, q, rfl, hj, ha, hl⟩
  · exact out_none h
  · exact out_bad
  · exact out_stop hf
  · exact out_go hj ha (by omega)

theorem out_next {J K F : Session → Prop} {x : Option Step} {g : Part} {n : Nat} (hx : Out3 T block n J F x)
    (hg : Spec T block g J K F) : Out3 T block n K F (Step.next x g) := by
  rcases hx with ⟨h, rfl⟩ | ⟨s, rfl⟩ | ⟨s, rfl, hf⟩ | ⟨s, q, rfl, hj, ha, hl⟩
  · exact out_none h
  · exact out_bad
  · exact out_stop hf
  · exact out_mono hl (hg s q ha hj)

theorem spec_mandatory {f : Parser} {I J F : Session → Prop} (h : PSpec T block f I J) :
    Spec T block (mandatory f) I J F := by
  intro s p ha hi
  unfold mandatory
  rcases h s p ha hi with ⟨h, e⟩ | ⟨i, s', q, e, h⟩
  · simp only [e]; exact out_none h
  · simp only [e, Option.bind_eq_bind, Option.bind_some]
    rcases h with rfl | ⟨rfl, -, -⟩ | ⟨rfl, hj, hq, hl⟩
    · exact out_bad
    · exact out_bad
    · exact out_go hj hq (by omega)

theorem spec_optional {f : Parser} {I F : Session → Prop} (h : PSpec T block f I I) :
    Spec T block (optional f) I I F := by
  intro s p ha hi
  unfold optional
  rcases h s p ha hi with ⟨h, e⟩ | ⟨i, s', q, e, h⟩
  · simp only [e]; exact out_none h
  · simp only [e, Option.bind_eq_bind, Option.bind_some]
    rcases h with rfl | ⟨rfl, rfl, rfl⟩ | ⟨rfl, hj, hq, hl⟩
    · exact out_bad
    · exact out_go hi ha (Nat.le_refl _)
    · exact out_go hj hq (by omega)

theorem many_out {f : Parser} {I F : Session → Prop} (h : PSpec T block f I I) (n : Nat) (s : Session)
    (p : List Char) (hl : p.length < n) (ha : At block p) (hi : I s) : Out3 T block p.length I F (many f n s p) := by
  induction n generalizing s p with
  | zero => omega
  | succ n ih =>
    rw [many]
    rcases h s p ha hi with ⟨h, e⟩ | ⟨i, s', q, e, h⟩
    · simp only [e]; exact out_none h
    simp only [e, Option.bind_eq_bind, Option.bind_some]
    rcases h with rfl | ⟨rfl, rfl, rfl⟩ | ⟨rfl, hj, hq, hlt⟩
    · exact out_bad
    · exact out_go hi ha (Nat.le_refl _)
    · exact out_mono (by omega) (ih s' q (by omega) hq hj)

end

theorem at_length {block p : List Char} (h : At block p) : p.length < block.length := by
  obtain ⟨pre, hp, rfl, -⟩ := h
  have : 0 < pre.length := List.length_pos_iff.2 hp
  simp
  omega

theorem spec_many {T : Prop} {block : List Char} {f : Parser} {I F : Session → Prop} (h : PSpec T block f I I) :
    Spec T block (many f (block.length + 1)) I I F := by
  intro s p ha hi
  have := at_length ha
  exact many_out h _ s p (by omega) ha hi

theorem at_cons {block p : List Char} (h : At block p) : ∃ c q, p = c :: q := by
  obtain ⟨_, _, _, hn⟩ := h
  cases p with
  | nil => cases hn
  | cons c q => exact ⟨c, q, rfl⟩

theorem ended_step (s : Session) (c : Char) (q : List Char) :
    ended s (c :: q) = some (.stop 0 s) ∨ ended s (c :: q) = some (.go s (c :: q)) := by
  by_cases hc : c = NUL ∨ c = '\r' ∨ c = '\n'
  · exact .inl (by simp [ended, deref, hc]; rfl)
  · exact .inr (by simp [ended, deref, hc])

section

variable {T : Prop} {block : List Char}

theorem spec_ended {F : Session → Prop} : Spec T block ended F F F := by
  intro s p ha hi
  obtain ⟨c, q, rfl⟩ := at_cons ha
  rcases ended_step s c q with e | e
  · rw [e]; exact out_stop hi
  · rw [e]; exact out_go hi ha (Nat.le_refl _)

theorem spec_optionalEnd {f : Parser} {F : Session → Prop} (h : PSpec T block f F F) :
    Spec T block (optionalEnd f) F F F :=
  fun s p ha hi => out_next (spec_optional h s p ha hi) spec_ended

theorem manyEnd_out {f : Parser} {F : Session → Prop} (h : PSpec T block f F F) (n : Nat) (s : Session)
    (p : List Char) (hl : p.length < n) (ha : At block p) (hi : F s) : Out3 T block p.length F F (manyEnd f n s p) := by
  induction n generalizing s p with
  | zero => omega
  | succ n ih =>
    rw [manyEnd]
    rcases h s p ha hi with ⟨h, e⟩ | ⟨i, s', q, e, h⟩
    · simp only [e]; exact out_none h
    simp only [e, Option.bind_eq_bind, Option.bind_some]
    rcases h with rfl | ⟨rfl, rfl, rfl⟩ | ⟨rfl, hj, hq, hlt⟩
    · exact out_bad
    · exact out_next (spec_ended s' q ha hi) (fun s p ha hi => out_go hi ha (Nat.le_refl _))
    · obtain ⟨c, q', rfl⟩ := at_cons hq
      rcases ended_step s' c q' with e2 | e2
      · rw [e2]; exact out_stop hj
      · rw [e2]
        exact out_mono (by omega) (ih s' _ (by omega) hq hj)

theorem spec_manyEnd {f : Parser} {F : Session → Prop} (h : PSpec T block f F F) :
    Spec T block (manyEnd f (block.length + 1)) F F F := by
  intro s p ha hi
  have := at_length ha
  exact manyEnd_out h _ s p (by omega) ha hi

end

/-! ## The line parsers -/

theorem pspec_line {T : Prop} {block : List Char} {name : Char} {body : Session → Str → List Char → List Char → Option (Bool × Session)}
    {I J : Session → Prop}
    (h : ∀ s val crlf k, I s → Text val → AtEnd crlf → block = k ++ name :: '=' :: (val ++ crlf) →
      (¬ T ∧ body s val (val ++ crlf) crlf = none) ∨ ∃ x, body s val (val ++ crlf) crlf = some x ∧ (x.1 = true → J x.2)) :
    PSpec T block (fun s p => line block false name (body s) s p) I J := by
  intro s p ⟨pre, hp, hb, hn⟩ hi
  rcases line_cases hb hn false (.inr hp) name (body s) s with ⟨i, h0, e⟩ | ⟨k, j, val, e, r, next, hk, hj, hv, ha, hx, hnn, el⟩
  · rcases h0 with rfl | rfl
    · exact .inr ⟨_, _, _, e, .inl rfl⟩
    · exact .inr ⟨_, _, _, e, .inr (.inl ⟨rfl, rfl, rfl⟩)⟩
  · rcases h s val (e :: r) k hi hv ha hk with ⟨hT, ex⟩ | ⟨x, ex, hJ⟩
    · exact .inl ⟨hT, by simpa [ex] using el⟩
    refine .inr ?_
    simp only [ex, Option.bind_some] at el
    by_cases h1 : x.1 = true
    · simp only [h1, if_true] at el
      refine ⟨_, _, _, el, .inr (.inr ⟨rfl, hJ h1, ?_, ?_⟩)⟩
      · rcases hx with rfl | rfl
        · exact ⟨pre ++ j ++ '=' :: (val ++ [e]), by simp, by rw [hb, hj]; simp, hnn⟩
        · exact ⟨pre ++ j ++ '=' :: (val ++ [e, '\n']), by simp, by rw [hb, hj]; simp, hnn⟩
      · rw [hj]
        rcases hx with rfl | rfl <;> simp <;> omega
    · simp only [h1] at el
      exact ⟨_, _, _, el, .inl rfl⟩

theorem mem_last {α : Type} {l : List α} {P : α → Prop} (h : ∀ a ∈ l, P a) {x : α} (hx : P x) : ∀ a ∈ l ++ [x], P a := by
  intro a m
  rcases List.mem_append.1 m with m | m
  · exact h a m
  · rw [List.mem_singleton.1 m]; exact hx

theorem known_place {b v o t : Prop} {s : Session} {f : Session → Session} {g : Media → Media} (h : Known b v o t s)
    (hf : Known b v o t s → Known b v o t (f s)) (hg : ∀ m, WfMedia m → WfMedia (g m)) : Known b v o t (place s f g) := by
  unfold place
  cases e : s.medias.getLast? with
  | none => exact hf h
  | some m =>
    have hm : m ∈ s.medias := List.mem_of_getLast? e
    refine ⟨fun hb => { h.1 hb with medias := ?_ }, h.2⟩
    exact mem_last (fun a ha => (h.1 hb).medias a ((List.dropLast_sublist _).subset ha)) (hg m ((h.1 hb).medias m hm))

variable {T b v o t : Prop} {block : List Char}

theorem some_text {P : Str → Prop} {val : Str} (h : P val) : ∀ x, some val = some x → P x := by rintro x ⟨⟩; exact h

theorem ps_s : PSpec T block (parse_s block) (Known b v o t) (Known b v o t) :=
  pspec_line fun _ _ _ _ hi hv _ _ => .inr ⟨_, rfl, fun _ => ⟨fun hb => { hi.1 hb with name := some_text hv }, hi.2⟩⟩

theorem ps_i : PSpec T block (parse_i block) (Known b v o t) (Known b v o t) :=
  pspec_line fun _ _ _ _ hi hv _ _ => .inr ⟨_, rfl, fun _ => by
    dsimp only [Option.elim]
    refine known_place hi (fun h => ?_) fun _ h => ?_
    · exact ⟨fun hb => { h.1 hb with info := some_text hv }, h.2⟩
    · exact { h with info := some_text hv }⟩

theorem ps_u : PSpec T block (parse_u block) (Known b v o t) (Known b v o t) :=
  pspec_line fun _ _ _ _ hi hv _ _ => .inr ⟨_, rfl, fun _ => ⟨fun hb => { hi.1 hb with uri := some_text hv }, hi.2⟩⟩

theorem ps_e : PSpec T block (parse_e block) (Known b v o t) (Known b v o t) :=
  pspec_line fun _ _ _ _ hi hv _ _ =>
    .inr ⟨_, rfl, fun _ => ⟨fun hb => { hi.1 hb with emails := mem_last (hi.1 hb).emails hv }, hi.2⟩⟩

theorem ps_p : PSpec T block (parse_p block) (Known b v o t) (Known b v o t) :=
  pspec_line fun _ _ _ _ hi hv _ _ =>
    .inr ⟨_, rfl, fun _ => ⟨fun hb => { hi.1 hb with phones := mem_last (hi.1 hb).phones hv }, hi.2⟩⟩

theorem ps_z : PSpec T block (parse_z block) (Known b v o t) (Known b v o t) :=
  pspec_line fun _ _ _ _ hi hv _ _ => .inr ⟨_, rfl, fun _ => ⟨fun hb => { hi.1 hb with zone := some_text hv }, hi.2⟩⟩

theorem ps_c : PSpec T block (parse_c block) (Known b v o t) (Known b v o t) := by
  refine pspec_line fun s val crlf _ hi hv ha _ => ?_
  obtain ⟨x, e, hx⟩ := readConnection_read hv ha
  refine .inr ⟨_, by rw [e]; rfl, ?_⟩
  cases x with
  | none => intro h; cases h
  | some c =>
    have hw := (hx c rfl).1
    intro _
    dsimp only [Option.elim]
    refine known_place hi (fun h => ?_) fun _ h => ?_
    · exact ⟨fun hb => { h.1 hb with connection := by rintro x ⟨⟩; exact hw }, h.2⟩
    · exact { h with connections := mem_last h.connections hw }

theorem ps_b : PSpec T block (parse_b block) (Known b v o t) (Known b v o t) := by
  refine pspec_line fun s val crlf _ hi hv ha _ => ?_
  obtain ⟨x, e, hx⟩ := readBandwidth_read hv ha
  refine .inr ⟨_, by rw [e]; rfl, ?_⟩
  cases x with
  | none => intro h; cases h
  | some c =>
    have hw := (hx c rfl).1
    intro _
    dsimp only [Option.elim]
    refine known_place hi (fun h => ?_) fun _ h => ?_
    · exact ⟨fun hb => { h.1 hb with bandwidths := mem_last (h.1 hb).bandwidths hw }, h.2⟩
    · exact { h with bandwidths := mem_last h.bandwidths hw }

theorem ps_k : PSpec T block (parse_k block) (Known b v o t) (Known b v o t) := by
  refine pspec_line fun s val crlf _ hi hv ha _ => ?_
  obtain ⟨x, e, hx⟩ := readPair_read hv ha
  refine .inr ⟨_, by rw [e]; rfl, ?_⟩
  cases x with
  | none => intro h; cases h
  | some c =>
    have hw := (hx c rfl).1
    intro _
    dsimp only [Option.elim]
    refine known_place hi (fun h => ?_) fun _ h => ?_
    · exact ⟨fun hb => { h.1 hb with key := by rintro x ⟨⟩; exact hw }, h.2⟩
    · exact { h with key := by rintro x ⟨⟩; exact hw }

theorem ps_a : PSpec T block (parse_a block) (Known b v o t) (Known b v o t) := by
  refine pspec_line fun s val crlf _ hi hv ha _ => ?_
  obtain ⟨x, e, hx⟩ := readPair_read hv ha
  refine .inr ⟨_, by rw [e]; rfl, ?_⟩
  cases x with
  | none => intro h; cases h
  | some c =>
    have hw := (hx c rfl).1
    intro _
    dsimp only [Option.elim]
    refine known_place hi (fun h => ?_) fun _ h => ?_
    · exact ⟨fun hb => { h.1 hb with attributes := mem_last (h.1 hb).attributes hw }, h.2⟩
    · exact { h with attributes := mem_last h.attributes hw }

theorem ps_t : PSpec T block (parse_t block) (Known b v o t) (Known b v o True) := by
  refine pspec_line fun s val crlf _ hi hv ha _ => ?_
  obtain ⟨x, e, hx⟩ := readTime_read hv ha
  refine .inr ⟨_, by rw [e]; rfl, ?_⟩
  cases x with
  | none => intro h; cases h
  | some c =>
    obtain ⟨hw, hr, -⟩ := hx c rfl
    intro _
    exact ⟨fun hb => { hi.1 hb with times := mem_last (hi.1 hb).times ⟨hw, by rw [hr]; simp⟩ }, hi.2.1, hi.2.2.1,
      fun _ => by simp⟩

theorem ps_r : PSpec T block (parse_r block) (Known b v o t) (Known b v o t) := by
  refine pspec_line (body := fun sdp val _ _ => some ((sdp.times.getLast?).elim (false, sdp) fun t =>
    (true, { sdp with times := sdp.times.dropLast ++ [{ t with repeats := t.repeats ++ [val] }] })))
    fun s val crlf _ hi hv ha _ => .inr ⟨_, rfl, ?_⟩
  cases e : s.times.getLast? with
  | none => intro h; cases h
  | some d =>
    intro _
    have hm : d ∈ s.times := List.mem_of_getLast? e
    refine ⟨fun hb => { hi.1 hb with times := ?_ }, hi.2.1, hi.2.2.1, fun _ => by simp⟩
    have hd := (hi.1 hb).times d hm
    exact mem_last (fun a ha => (hi.1 hb).times a ((List.dropLast_sublist _).subset ha)) ⟨hd.1, mem_last hd.2 hv⟩

theorem ps_o : PSpec T block (parse_o block) (Known b v o t) (Known b v True t) := by
  refine pspec_line fun s val crlf _ hi hv ha _ => ?_
  have stop : ∀ s' : Session, (¬ T ∧ (some (false, s') : Option (Bool × Session)) = none) ∨
    ∃ x, (some (false, s') : Option (Bool × Session)) = some x ∧
    (x.1 = true → Known b v True t x.2) := fun s' => .inr ⟨_, rfl, by intro h; cases h⟩
  rcases token_cases hv.2 sp_ok ha with ⟨a1, v1, rfl, h1, c1, t1⟩ | ⟨-, t1⟩
  case inr => simp only [t1, Option.bind_eq_bind, Option.bind_some]; exact stop _
  simp only [t1, Option.bind_eq_bind, Option.bind_some]
  rcases token_cases c1 sp_ok ha with ⟨a2, v2, rfl, h2, c2, t2⟩ | ⟨-, t2⟩
  case inr => simp only [t2, Option.bind_some]; exact stop _
  simp only [t2, Option.bind_some]
  rcases token_cases c2 sp_ok ha with ⟨a3, v3, rfl, h3, c3, t3⟩ | ⟨-, t3⟩
  case inr => simp only [t3, Option.bind_some]; exact stop _
  simp only [t3, Option.bind_some]
  rcases token_cases c3 sp_ok ha with ⟨a4, v4, rfl, h4, c4, t4⟩ | ⟨-, t4⟩
  case inr => simp only [t4, Option.bind_some]; exact stop _
  simp only [t4, Option.bind_some]
  rcases token_cases c4 sp_ok ha with ⟨a5, v5, rfl, h5, c5, t5⟩ | ⟨-, t5⟩
  case inr => simp only [t5, Option.bind_some]; exact stop _
  simp only [t5, Option.bind_some]
  rcases lastToken_cases c5 ha with ⟨h6, t6⟩ | ⟨-, t6⟩
  case inr => simp only [t6, Option.bind_some]; exact stop _
  simp only [t6, Option.bind_some]
  refine .inr ⟨_, rfl, fun _ => ⟨fun hb => { hi.1 hb with
    username := some_text h1, sess_id := some_text h2, sess_version := some_text h3, nettype := some_text h4,
    addrtype := some_text h5, addr := some_text h6 }, hi.2.1, fun _ => by simp [Origin], hi.2.2.2⟩⟩

/-- The text ends with a media line that ends with the protocol and one byte of line end. -/
def EndsInBareMedia (s : Str) : Prop :=
  ∃ k val e, s = k ++ 'm' :: '=' :: (val ++ [e]) ∧ (e = '\r' ∨ e = '\n') ∧ Clean val ∧ BareMedia val

theorem ps_m {s : Str} (hs : s.Ok) :
    PSpec (¬ EndsInBareMedia s) (s ++ [NUL]) (parse_m (s ++ [NUL])) (Known b v o t) (Known b v o t) := by
  refine pspec_line fun sdp val crlf k hi hv ha hk => ?_
  have hend : NUL ∈ crlf.drop 2 ∨ (crlf.drop 2 = [] ∧ (BareMedia val → EndsInBareMedia s)) := by
    obtain ⟨e, r, rfl, he, hr⟩ := ha
    cases r with
    | nil => cases hr
    | cons x r =>
      by_cases hx : NUL ∈ r
      · exact .inl (by simpa using hx)
      · have hx0 : x = NUL := by
          rcases List.mem_cons.1 hr with h | h
          · exact h.symm
          · exact absurd h hx
        subst hx0
        have h1 : s ++ [NUL] = (k ++ 'm' :: '=' :: (val ++ [e])) ++ NUL :: r := by rw [hk]; simp
        have h2 : r = [] := by
          cases r with
          | nil => rfl
          | cons y r =>
            exfalso
            have : NUL ∈ s := by
              have h3 := congrArg List.dropLast h1
              rw [List.dropLast_concat] at h3
              rw [h3, show (k ++ 'm' :: '=' :: (val ++ [e])) ++ NUL :: y :: r =
                ((k ++ 'm' :: '=' :: (val ++ [e])) ++ [NUL]) ++ (y :: r) by simp, List.dropLast_append_of_ne_nil (by simp)]
              simp
            exact hs this
        subst h2
        exact .inr ⟨rfl, fun hb => ⟨k, val, e, List.append_cancel_right h1, he, hv.2, hb⟩⟩
  rcases readMedia_read hv ha (hend.imp id fun h => h.1) with ⟨h0, hb, e⟩ | ⟨x, e, hx⟩
  · rcases hend with h | h
    · rw [h0] at h; cases h
    · exact .inl ⟨fun hn => hn (h.2 hb), by rw [e]; rfl⟩
  refine .inr ⟨_, by rw [e]; rfl, ?_⟩
  cases x with
  | none => intro h; cases h
  | some m =>
    obtain ⟨hl, ⟨h1, h2, h3, h4, h5⟩, -⟩ := hx m rfl
    intro _
    refine ⟨fun hb => { hi.1 hb with medias := mem_last (hi.1 hb).medias ?_ }, hi.2⟩
    exact ⟨hl, by simp [h1], by simp [h2], by simp [h3], by simp [h4], by simp [h5]⟩

theorem v_out {s : Str} {sdp : Session} (h : Known b v o t sdp) (F : Session → Prop) :
    Out3 T (s ++ [NUL]) (s ++ [NUL]).length (Known b True o t) F (mandatory (parse_v (s ++ [NUL])) sdp (s ++ [NUL])) := by
  have hl := line_cases (block := s ++ [NUL]) (pre := []) (buf := s ++ [NUL]) rfl (by simp) true (.inl rfl) 'v'
    (fun val _ _ => some (true, { sdp with version := some val })) sdp
  unfold mandatory parse_v
  rcases hl with ⟨i, h0, e⟩ | ⟨k, j, val, e, r, next, hk, hj, hv, ha, hx, hnn, el⟩
  · simp only [e, Option.bind_eq_bind, Option.bind_some]
    rcases h0 with rfl | rfl
    · exact out_bad
    · exact out_bad
  · simp only [Option.bind_some, if_true] at el
    simp only [el, Option.bind_eq_bind, Option.bind_some]
    refine out_go ?_ ?_ ?_
    · exact ⟨fun hb => { h.1 hb with version := some_text hv }, fun _ => by simp, h.2.2⟩
    · rcases hx with rfl | rfl
      · exact ⟨j ++ '=' :: (val ++ [e]), by simp, by rw [hj]; simp, hnn⟩
      · exact ⟨j ++ '=' :: (val ++ [e, '\n']), by simp, by rw [hj]; simp, hnn⟩
    · rw [hj]
      rcases hx with rfl | rfl <;> simp <;> omega

/-- What holds from the first `t` line on. -/
abbrev Final (b : Prop) : Session → Prop := Known b True True True

theorem timeLoop_out (n : Nat) (s : Session) (p : List Char) (hl : p.length < n) (ha : At block p) (hi : Final b s) :
    Out3 T block p.length (Final b) (Final b) (timeLoop block n s p) := by
  induction n generalizing s p with
  | zero => omega
  | succ n ih =>
    rw [timeLoop]
    rcases spec_manyEnd (T := T) (ps_r (block := block)) s p ha hi with
      ⟨h, e⟩ | ⟨s', e⟩ | ⟨s', e, hf⟩ | ⟨s', q, e, hf, hq, hle⟩
    · rw [e]; exact out_none h
    · rw [e]; exact out_bad
    · rw [e]; exact out_stop hf
    · rw [e]
      simp only [Step.next, Option.bind_some]
      rcases ps_t (T := T) s' q hq hf with ⟨h, e2⟩ | ⟨i, s2, q2, e2, h⟩
      · simp only [e2]; exact out_none h
      simp only [e2, Option.bind_eq_bind, Option.bind_some]
      rcases h with rfl | ⟨rfl, rfl, rfl⟩ | ⟨rfl, hj, hq2, hlt⟩
      · exact out_bad
      · obtain ⟨c, q', rfl⟩ := at_cons hq
        rcases ended_step s2 c q' with e3 | e3
        · rw [e3]; exact out_stop hf
        · rw [e3]; exact out_go hf hq hle
      · obtain ⟨c, q', rfl⟩ := at_cons hq2
        rcases ended_step s2 c q' with e3 | e3
        · rw [e3]; exact out_stop hj
        · rw [e3]
          exact out_mono (by omega) (ih s2 _ (by omega) hq2 hj)

theorem spec_mediaLines : Spec T block (mediaLines block) (Final b) (Final b) (Final b) := fun s p ha hi =>
  out_next (out_next (out_next (out_next (spec_optionalEnd ps_i s p ha hi) (spec_manyEnd ps_c)) (spec_manyEnd ps_b))
    (spec_optionalEnd ps_k)) (spec_manyEnd ps_a)

theorem mediaLoop_out {s : Str} (hs : s.Ok) (n : Nat) (sdp : Session) (p : List Char)
    (hl : p.length < n) (ha : At (s ++ [NUL]) p) (hi : Final b sdp) :
    Out3 (¬ EndsInBareMedia s) (s ++ [NUL]) p.length (Final b) (Final b) (mediaLoop (s ++ [NUL]) n sdp p) := by
  induction n generalizing sdp p with
  | zero => omega
  | succ n ih =>
    rw [mediaLoop]
    rcases ps_m hs sdp p ha hi with ⟨h, e⟩ | ⟨i, s2, q, e, h⟩
    · simp only [e]; exact out_none h
    simp only [e, Option.bind_eq_bind, Option.bind_some]
    rcases h with rfl | ⟨rfl, rfl, rfl⟩ | ⟨rfl, hj, hq, hlt⟩
    · exact out_bad
    · exact out_next (out_next (spec_ended s2 q ha hi) spec_mediaLines)
        (fun s p ha hi => out_go hi ha (Nat.le_refl _))
    · rcases out_next (spec_ended s2 q hq hj) (spec_mediaLines (T := ¬ EndsInBareMedia s) (b := b)) with
        ⟨h, e⟩ | ⟨s', e⟩ | ⟨s', e, hf⟩ | ⟨s', q', e, hf, hq', hle⟩
      · simp only [e]; exact out_none h
      · simp only [e]; exact out_bad
      · simp only [e]; exact out_stop hf
      · simp only [e]
        exact out_mono (by omega) (ih s' q' (by omega) hq' hf)

theorem parse_out {s : Str} (hs : s.Ok) (sdp : Session) (hb : b → Fields sdp) :
    (EndsInBareMedia s ∧ sdp_message_parse sdp (s ++ [NUL]) = none) ∨
    ∃ r, sdp_message_parse sdp (s ++ [NUL]) = some r ∧ (r.1 = -1 ∨ (r.1 = 0 ∧ Final b r.2)) := by
  have h0 : Known b False False False sdp := ⟨hb, False.elim, False.elim, False.elim⟩
  have h := v_out (T := ¬ EndsInBareMedia s) (s := s) h0 (Final b)
  have h := out_next h (spec_optional ps_s)
  have h := out_next h (spec_mandatory ps_o)
  have h := out_next h (spec_optional ps_s)
  have h := out_next h (spec_optional ps_i)
  have h := out_next h (spec_optional ps_u)
  have h := out_next h (spec_many ps_e)
  have h := out_next h (spec_many ps_p)
  have h := out_next h (spec_optional ps_c)
  have h := out_next h (spec_many ps_b)
  have h := out_next h (spec_mandatory ps_t)
  have h := out_next h spec_ended
  have h := out_next h (spec_manyEnd ps_r)
  have h := out_next h (spec_optionalEnd ps_t)
  have h := out_next h (g := timeLoop (s ++ [NUL]) ((s ++ [NUL]).length + 1))
    (fun a p ha hi => timeLoop_out _ a p (by have := at_length ha; omega) ha hi)
  have h := out_next h (spec_optionalEnd ps_z)
  have h := out_next h (spec_optionalEnd ps_k)
  have h := out_next h (spec_manyEnd ps_a)
  have h := out_next h (g := mediaLoop (s ++ [NUL]) ((s ++ [NUL]).length + 1))
    (fun a p ha hi => mediaLoop_out hs _ a p (by have := at_length ha; omega) ha hi)
  unfold sdp_message_parse
  rcases h with ⟨h, e⟩ | ⟨s', e⟩ | ⟨s', e, hf⟩ | ⟨s', q, e, hf, -, -⟩
  · exact .inl ⟨Classical.not_not.1 h, by simp only [e]; rfl⟩
  · exact .inr ⟨(-1, s'), by simp only [e]; rfl, .inl rfl⟩
  · exact .inr ⟨(0, s'), by simp only [e]; rfl, .inr ⟨rfl, hf⟩⟩
  · exact .inr ⟨(0, s'), by simp only [e]; rfl, .inr ⟨rfl, hf⟩⟩

/-! ## C92 and C93 -/

/-- **C92** (partial): reading a session description stays inside the text, whatever the text is and
whatever the session holds, unless the text ends with a media line that ends with the protocol and has one
byte of line end. -/
theorem c92_in_bounds_partial (s : Str) (hs : s.Ok) (hm : ¬ EndsInBareMedia s) (sdp : Session) :
    ∃ i sdp', sdp_message_parse sdp (s ++ [NUL]) = some (i, sdp') ∧ (i = -1 ∨ i = 0) := by
  rcases parse_out (b := False) hs sdp False.elim with ⟨h, -⟩ | ⟨r, e, h⟩
  · exact absurd h hm
  · exact ⟨r.1, r.2, e, h.imp id fun h => h.1⟩

/-- A description whose last line is a bare media line with one byte of line end. -/
def bareText : Str := "v=0\r\no=a 1 1 IN IP4 b\r\nt=0 0\r\nm=audio 9 RTP/AVP\n".toList

/-- **C92 is violated** without that condition: for such a text the search for payloads starts behind the
terminator. -/
theorem c92_violated : bareText.Ok ∧ EndsInBareMedia bareText ∧ sdp_message_parse {} (bareText ++ [NUL]) = none := by
  refine ⟨by unfold Str.Ok; decide, ⟨"v=0\r\no=a 1 1 IN IP4 b\r\nt=0 0\r\n".toList, "audio 9 RTP/AVP".toList, '\n', by decide,
    .inr rfl, by unfold Clean; decide, "audio".toList, "9".toList, "RTP/AVP".toList, by decide, ?_, ?_, ?_, .inl (by decide)⟩, by decide +kernel⟩
  · exact ⟨⟨by decide, by unfold Clean; decide⟩, by decide⟩
  · exact ⟨⟨by decide, by unfold Clean; decide⟩, by decide⟩
  · exact ⟨by decide, by unfold Clean; decide⟩

/-- With two bytes of line end the same description is read. -/
example : (sdp_message_parse {} ("v=0\r\no=a 1 1 IN IP4 b\r\nt=0 0\r\nm=audio 9 RTP/AVP\r\n".toList ++ [NUL])).map (·.1) = some 0 := by
  decide +kernel

/-- A text that is refused, and read inside its bytes. -/
example : (sdp_message_parse {} ("v=0\r\no=a 1".toList ++ [NUL])).map (·.1) = some (-1) := by decide +kernel

/-- **C93**: what a successful reading into a new session stores: the lines `v`, `o` and `t` are there with
all their parts, and every part of every line is complete and has no byte that ends it. -/
theorem c93_stored (s : Str) (hs : s.Ok) (sdp : Session) (h : sdp_message_parse {} (s ++ [NUL]) = some (0, sdp)) :
    WfSession sdp := by
  have h0 : Fields {} := by constructor <;> simp
  rcases parse_out (b := True) hs {} (fun _ => h0) with ⟨-, e⟩ | ⟨r, e, hr⟩
  · rw [h] at e; cases e
  rw [h] at e
  cases e
  rcases hr with hr | ⟨-, hr⟩
  · cases hr
  · exact ⟨hr.1 trivial, hr.2.1 trivial, hr.2.2.1 trivial, hr.2.2.2 trivial⟩

/-- What is stored for a description with two media. -/
example : sdp_message_parse {} (("v=0\r\no=alice 1 2 IN IP4 a.net\r\ns=call\r\nc=IN IP4 1.2.3.4/16\r\nt=0 0\r\nk=clear:x\r\n" ++
    "m=audio 9/2 RTP/AVP 0 8\r\na=sendrecv\r\nm=video 7 RTP/AVP 31\nb=AS:64\n").toList ++ [NUL]) = some (0,
  { version := some ['0'], username := some "alice".toList, sess_id := some ['1'], sess_version := some ['2'],
    nettype := some "IN".toList, addrtype := some "IP4".toList, addr := some "a.net".toList, name := some "call".toList,
    connection := some ⟨some "IN".toList, some "IP4".toList, some "1.2.3.4".toList, some "16".toList, none⟩,
    times := [⟨some ['0'], some ['0'], []⟩], key := some ⟨some "clear".toList, some ['x']⟩,
    medias := [
      { media := some "audio".toList, port := some ['9'], number := some ['2'], proto := some "RTP/AVP".toList,
        payloads := [['0'], ['8']], attributes := [⟨some "sendrecv".toList, none⟩] },
      { media := some "video".toList, port := some ['7'], proto := some "RTP/AVP".toList,
        payloads := ["31".toList], bandwidths := [⟨some "AS".toList, some "64".toList⟩] }] }) := by
  decide +kernel

end Osip.Sdp
