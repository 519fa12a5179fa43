import Verif.Own.Contracts
import Verif.Own.Run

/-!
# C118: no function of the parser loses a block of memory

All theorems are about `run`, the executions of the functions of Verif/Own/Parse.lean for every text (every choice), every pattern of failing
allocations and every length of the execution.
-/

set_option autoImplicit false

namespace Osip.Own

/-- The blocks that structures kept at the start are kept at the end. -/
def StillKept (args : List Arg) : Res → Prop
  | .ret _ s => ∀ b, (place args []).2[b]? = some .kept → s.cell b = .kept
  | _ => True

theorem contract_calls : ∀ f ∈ allFuns, ∀ args ∈ calls f, ∃ e ∈ contract f, e.1 = args.map Arg.known := by decide +kernel

/-- Whatever the text and whichever allocations fail, the function, if it is none of `unsafeFuns`, never uses NULL, an uninitialised variable
or a block that was given back, gives back no block twice, and when it returns, with or without an error, every block in use is kept by a
structure or one of the arguments points to it; the blocks that structures kept before are not touched.

Missing: the functions of `unsafeFuns`, for which it is wrong (`c118_violated`). -/
theorem c118_memory_partial (m : Mode) (twice : Bool) (f : Fun) (h : f ∉ unsafeFuns m twice) (args : List Arg) (ha : args ∈ calls f)
    (n : Nat) (picks : List Bool) :
    NoLeak (code twice f).params (run m (code twice) n f args picks) ∧ StillKept args (run m (code twice) n f args picks) := by
  obtain ⟨e, he, hk⟩ := contract_calls f (mem_allFuns f) args ha
  have he' : e ∈ contracts m twice f := by rw [contracts, if_neg h]; exact he
  rcases run_sound (contracts_ok m twice) n f args picks e he' hk with hr | ⟨ok, t, c, hr, h1, h2, h3, h4, h5⟩
  · rw [hr]; exact ⟨trivial, trivial⟩
  · rw [hr]
    refine ⟨?_, h5⟩
    intro b hb
    rcases h2.all b hb with h6 | ⟨x, h6, h7⟩
    · exact h6.elim
    · refine ⟨x, ?_, h7⟩
      apply Decidable.byContradiction
      intro hx
      have hx' : (code twice f).params ≤ x := by omega
      have : c.get x ∈ c.vars.drop (code twice f).params ∨ c.get x = .dead := by
        simp only [AS.get]
        cases hv : c.vars[x]? with
        | none => exact .inr rfl
        | some v =>
          left
          refine List.mem_of_getElem? (i := x - (code twice f).params) ?_
          rw [List.getElem?_drop]
          rw [show (code twice f).params + (x - (code twice f).params) = x by omega]
          simpa using hv
      rcases this with h8 | h8
      · rw [h3 _ h8] at h6; cases h6
      · rw [h8] at h6; cases h6

/-! ## Functions that return a text or an event -/

/-- The functions that write a structure to a new text. -/
def writers : List Fun :=
  [.uriToStr, .fromToStr, .viaToStr, .contactToStr, .recordRouteToStr, .callIdToStr, .callInfoToStr, .contentTypeToStr, .contentLengthToStr,
    .cseqToStr, .acceptToStr, .acceptEncodingToStr, .authToStr, .headerToStr, .bodyToStr, .startRequestToStr, .startResponseToStr, .messageToStr]

/-- A line of the result of such a function. -/
def WriteOk (args : List Arg) (r : Bool × List A) : Prop :=
  r.2[0]? = some (args.headD .none).known ∧ (r.1 = true → r.2[1]? = some .live) ∧
    (r.1 = false → r.2[1]? = some .null ∨ (r.2[1]? = some .dead ∧ args.headD .none = .null))

instance (args : List Arg) (r : Bool × List A) : Decidable (WriteOk args r) := inferInstanceAs (Decidable (_ ∧ _))

theorem writers_contract : ∀ f ∈ writers, ∀ args ∈ written, ∃ e ∈ contract f, e.1 = args.map Arg.known ∧ ∀ r ∈ e.2, WriteOk args r := by
  decide +kernel

theorem writers_calls : ∀ f ∈ writers, ∀ args ∈ written, args ∈ calls f := by decide +kernel

theorem written_head : ∀ args ∈ written, args.headD .none ≠ .null → args.headD .none = .block ∨ args.headD .none = .kept := by decide

theorem take_get {c : AS} {k i : Nat} {v : A} (h : (c.vars.take k)[i]? = some v) : c.get i = v := by
  rw [List.getElem?_take] at h
  split at h
  · simp only [AS.get, h, Option.getD_some]
  · cases h

theorem writers_params (twice : Bool) : ∀ f ∈ writers, (code twice f).params = 2 := by cases twice <;> decide

/-- Writing a structure: on success the variable of the caller points to a new block, which the caller has to give back; on an error there is
nothing to give back, and, unless there was no structure, the variable is NULL. In both cases nothing else was allocated, and the structure is
in use as before. (`args` is a structure, which the caller owns or another one keeps, or NULL.) -/
theorem c118_written (m : Mode) (twice : Bool) (f : Fun) (hw : f ∈ writers) (h : f ∉ unsafeFuns m twice) (args : List Arg)
    (ha : args ∈ written) (n : Nat) (picks : List Bool) (ok : Bool) (s : St) (hr : run m (code twice) n f args picks = .ret ok s) :
    (ok = true → ∃ b, s.get 1 = .ptr b ∧ s.cell b = .live ∧ ∀ d, (s.cell d).owed = true → d = b ∨ s.get 0 = .ptr d) ∧
    (ok = false → (args.headD .none ≠ .null → s.get 1 = .null) ∧ ∀ d, (s.cell d).owed = true → s.get 0 = .ptr d) ∧
    (args.headD .none = .null → s.get 0 = .null) ∧
    (args.headD .none ≠ .null → ∃ b, s.get 0 = .ptr b ∧ (s.cell b).usable = true) := by
  obtain ⟨e, he, hk, hc⟩ := writers_contract f hw args ha
  have hp := writers_params twice f hw
  have he' : e ∈ contracts m twice f := by rw [contracts, if_neg h]; exact he
  have hm := writers_calls f hw args ha
  have hleak := (c118_memory_partial m twice f h args hm n picks).1
  rcases run_sound (contracts_ok m twice) n f args picks e he' hk with hr' | ⟨ok', t, c, hr', h1, h2, h3, h4, h5⟩
  · rw [hr'] at hr; cases hr
  · rw [hr] at hr'
    cases hr'
    rw [hr, hp] at hleak
    rw [hp] at h1 h3 h4
    obtain ⟨c1, c2, c3⟩ := hc _ h1
    have v0 := h2.val 0
    have v1 := h2.val 1
    rw [take_get c1] at v0
    have owed : ∀ d, (s.cell d).owed = true → s.get 0 = .ptr d ∨ s.get 1 = .ptr d := by
      intro d hd
      obtain ⟨x, hx, hg⟩ := hleak d hd
      match x, hx with
      | 0, _ => exact .inl hg
      | 1, _ => exact .inr hg
    refine ⟨?_, ?_, ?_, ?_⟩
    · intro hok
      rw [take_get (c2 hok)] at v1
      obtain ⟨b, hb, hl⟩ := v1
      refine ⟨b, hb, hl, ?_⟩
      intro d hd
      rcases owed d hd with h | h
      · exact .inr h
      · rw [hb] at h; cases h; exact .inl rfl
    · intro hok
      rcases c3 hok with h | ⟨h, hn⟩
      · rw [take_get h] at v1
        refine ⟨fun _ => v1, ?_⟩
        intro d hd
        rcases owed d hd with h | h
        · exact h
        · rw [v1] at h; cases h
      · refine ⟨fun hne => absurd hn hne, ?_⟩
        intro d hd
        rcases h2.all d hd with h6 | ⟨x, h6, h7⟩
        · exact h6.elim
        · obtain ⟨y, hy, hg⟩ := hleak d hd
          match y, hy with
          | 0, _ => exact hg
          | 1, _ =>
            exfalso
            by_cases hx : x < 2
            · match x, hx with
              | 0, _ => rw [take_get c1, hn] at h6; cases h6
              | 1, _ => rw [take_get h] at h6; cases h6
            · have : c.get x ∈ c.vars.drop 2 ∨ c.get x = .dead := by
                simp only [AS.get]
                cases hv : c.vars[x]? with
                | none => exact .inr rfl
                | some v =>
                  left
                  refine List.mem_of_getElem? (i := x - 2) ?_
                  rw [List.getElem?_drop, show 2 + (x - 2) = x by omega]
                  simpa using hv
              rcases this with h8 | h8
              · rw [h3 _ h8] at h6; cases h6
              · rw [h8] at h6; cases h6
    · intro hn; rw [hn] at v0; exact v0
    · intro hn
      rcases written_head args ha hn with h | h <;> rw [h] at v0 <;> obtain ⟨b, hb, hl⟩ := v0 <;> exact ⟨b, hb, by rw [hl]; rfl⟩

/-- osip_parse: it returns an event, which is the only block that has to be given back, or NULL, and then everything it allocated was given
back; also when allocations fail. Missing: nodes of lists that cannot be allocated and parts of bodies with two content-type lines. -/
theorem c118_event_partial (m : Mode) (hm : m ≠ .any) (n : Nat) (picks : List Bool) (ok : Bool) (s : St)
    (hr : run m (code false) n .osipParse [.none] picks = .ret ok s) :
    (ok = true → ∃ b, s.get 0 = .ptr b ∧ s.cell b = .live ∧ ∀ d, (s.cell d).owed = true → d = b) ∧
    (ok = false → s.get 0 = .null ∧ ∀ d, (s.cell d).owed = false) := by
  have h : Fun.osipParse ∉ unsafeFuns m false := by cases m <;> first | exact absurd rfl hm | decide
  have hleak := (c118_memory_partial m false .osipParse h [.none] (by decide) n picks).1
  rw [hr] at hleak
  have he' : ([A.dead], [(false, [A.null]), (true, [A.live])]) ∈ contracts m false .osipParse := by
    rw [contracts, if_neg h]; exact List.mem_singleton.2 rfl
  rcases run_sound (contracts_ok m false) n .osipParse [.none] picks _ he' rfl with hr' | ⟨ok', t, c, hr', h1, h2, h3, h4, h5⟩
  · rw [hr'] at hr; cases hr
  · rw [hr] at hr'
    cases hr'
    have v0 := h2.val 0
    have own : ∀ d, (s.cell d).owed = true → s.get 0 = .ptr d := by
      intro d hd
      obtain ⟨x, hx, hg⟩ := hleak d hd
      have : x = 0 := by simp only [code, osipParse] at hx; omega
      subst this
      exact hg
    simp only [List.mem_cons, Prod.mk.injEq, List.not_mem_nil, or_false] at h1
    rcases h1 with ⟨rfl, h1⟩ | ⟨rfl, h1⟩
    · have g := take_get (c := c) (k := (code false .osipParse).params) (i := 0) (v := .null) (by rw [h1]; rfl)
      rw [g] at v0
      refine ⟨fun e => by simp at e, fun _ => ⟨v0, ?_⟩⟩
      intro d
      cases hd : (s.cell d).owed with
      | false => rfl
      | true => have := own d hd; rw [v0] at this; cases this
    · have g := take_get (c := c) (k := (code false .osipParse).params) (i := 0) (v := .live) (by rw [h1]; rfl)
      rw [g] at v0
      obtain ⟨b, hb, hl⟩ := v0
      refine ⟨fun _ => ⟨b, hb, hl, ?_⟩, fun e => by simp at e⟩
      intro d hd
      have := own d hd
      rw [hb] at this; cases this; rfl

/-! ## The functions that lose blocks -/

/-- Choices, by the positions where the first way is taken. -/
def choices (l : List Nat) : List Bool := (List.range (l.getLastD 0 + 1)).map fun i => decide (i ∈ l)

/-- The execution is wrong, or a block in use is lost. -/
def lost (k : Nat) : Res → Bool
  | .ret _ s => (List.range s.heap.length).any fun b => (s.cell b).owed && (List.range k).all fun x => s.get x != .ptr b
  | .more => false
  | _ => true

theorem lost_noLeak {k : Nat} {r : Res} (h : lost k r = true) : ¬ NoLeak k r := by
  cases r with
  | ret ok s =>
    simp only [lost, List.any_eq_true, Bool.and_eq_true, List.all_eq_true, List.mem_range, bne_iff_ne] at h
    obtain ⟨b, -, h1, h2⟩ := h
    intro hn
    obtain ⟨x, hx, he⟩ := hn b h1
    exact h2 x hx he
  | more => cases h
  | _ => exact id

/-- No allocation fails, and a part of a body has two content-type lines. -/
def lostTwice : List (Fun × List Arg × List Nat) := [
  (.bodyParseHeader, [.block, .null], [2, 12, 15]),
  (.bodyParseMime, [.empty], [3, 13, 16]),
  (.setBodyMime, [.block], [3, 13, 16]),
  (.bodiesParse, [.block], [8, 18, 21]),
  (.messageParse, [.empty], [1, 3, 14, 24, 27]),
  (.osipParse, [.none], [1, 3, 14, 24, 27])]

/-- The same where allocations may fail. -/
def lostTwiceAlloc : List (Fun × List Arg × List Nat) := [
  (.bodyParseHeader, [.block, .null], [4, 19, 21]),
  (.bodyParseMime, [.empty], [5, 20, 22]),
  (.setBodyMime, [.block], [7, 22, 24]),
  (.bodiesParse, [.block], [14, 29, 31]),
  (.messageParse, [.empty], [2, 4, 21, 36, 38]),
  (.osipParse, [.none], [4, 6, 23, 38, 40])]

/-- An allocation fails, which is not that of a node of a list. -/
def lostAlloc : List (Fun × List Arg × List Nat) := [
  (.fromToStr, [.block, .none], [0, 2, 6]),
  (.viaToStr, [.block, .none], [3]),
  (.contactToStr, [.block, .none], [1, 3, 7]),
  (.recordRouteToStr, [.block, .none], [0, 2, 6]),
  (.callInfoToStr, [.block, .none], [3]),
  (.contentTypeToStr, [.block, .none], [4, 5]),
  (.acceptToStr, [.block, .none], [4, 5]),
  (.acceptEncodingToStr, [.block, .none], [3]),
  (.bodyToStr, [.block, .none], [4, 5]),
  (.strcatSimple, [.block, .kept], [15]),
  (.strcatLines, [.block], [0, 16]),
  (.messageRealloc, [.block], [0, 1]),
  (.messageToStr, [.block, .none], [7, 23])]

/-- The allocation of a node of a list fails. -/
def lostNode : List (Fun × List Arg × List Nat) := [
  (.paramAdd, [.block, .block], [1]),
  (.uriParseHeaders, [.block], [6, 7]),
  (.uriParseParams, [.block], [0, 7]),
  (.uriParse, [.empty], [6, 13, 14]),
  (.paramParseall, [.block], [0, 6]),
  (.fromParse, [.empty], [5, 6, 12]),
  (.viaParse, [.empty], [5, 8, 14]),
  (.contactParse, [.empty], [6, 7, 13]),
  (.callInfoParse, [.empty], [1, 2, 8]),
  (.contentTypeParse, [.empty], [2, 3, 9]),
  (.acceptEncodingParse, [.empty], [0, 1, 7]),
  (.setVia, [.block], [12]),
  (.appendVia, [.block], [11]),
  (.setRoute, [.block], [22]),
  (.setContact, [.block], [23]),
  (.setCallInfo, [.block], [6]),
  (.setAccept, [.block], [8]),
  (.setAcceptEncoding, [.block], [5]),
  (.setAllow, [.block], [4]),
  (.setWww, [.block], [7, 8]),
  (.setAuthorization, [.block], [7, 8]),
  (.setAuthInfo, [.block], [6, 7]),
  (.setFrom, [.block], [8, 9, 15]),
  (.setContentType, [.block], [5, 6, 12]),
  (.setHeader, [.block], [4]),
  (.replaceHeader, [.block], [5]),
  (.bodySetContentType, [.block, .null], [4, 5, 11]),
  (.bodySetHeader, [.block], [4]),
  (.bodyParseHeader, [.block, .null], [9, 10]),
  (.bodyParseMime, [.empty], [10, 11]),
  (.setBody, [.block], [4]),
  (.setBodyMime, [.block], [12, 13]),
  (.startRequest, [.empty], [12, 19, 20]),
  (.startLine, [.empty], [13, 20, 21]),
  (.callMethod, [.block], [26]),
  (.setAnyHeader, [.block], [6]),
  (.setMultiple, [.block], [0, 7]),
  (.headersParse, [.block], [7, 14, 15]),
  (.bodiesParse, [.block], [1, 10]),
  (.messageParse, [.empty], [2, 4, 8, 17]),
  (.osipParse, [.none], [4, 6, 10, 19])]

/-- An execution for each function of `unsafeFuns`. -/
def lostTable (m : Mode) (twice : Bool) : List (Fun × List Arg × List Nat) :=
  (if m = .any then lostNode else if twice then (if m = .none then lostTwice else lostTwiceAlloc) else []) ++ (if m = .none then [] else lostAlloc)

theorem lostTable_ok : ∀ m ∈ [Mode.none, .notNodes, .any], ∀ twice ∈ [false, true], ∀ f ∈ unsafeFuns m twice,
    ∃ w ∈ lostTable m twice, w.1 = f ∧ w.2.1 ∈ calls f ∧
      lost (code twice f).params (run m (code twice) 300 f w.2.1 (choices w.2.2)) = true := by decide +kernel

/-- The functions of `unsafeFuns` are wrong, each for some text and some pattern of failing allocations: a block is lost or NULL is used.
Together with `c118_memory_partial` this tells exactly which functions are right, in each of the six cases. -/
theorem c118_violated (m : Mode) (twice : Bool) (f : Fun) (h : f ∈ unsafeFuns m twice) :
    ∃ args ∈ calls f, ∃ n picks, ¬ NoLeak (code twice f).params (run m (code twice) n f args picks) := by
  obtain ⟨w, -, -, h2, h3⟩ := lostTable_ok m (by cases m <;> decide) twice (by cases twice <;> decide) f h
  exact ⟨w.2.1, h2, 300, choices w.2.2, lost_noLeak h3⟩

/-- A message with a part of a body that has two content-type lines: osip_parse returns normally, and a block that it allocated can no longer
be given back, though no allocation failed. -/
theorem c118_two_content_types : ∃ n picks ok s, run .none (code true) n .osipParse [.none] picks = .ret ok s ∧
    ∃ b, (s.cell b).owed = true ∧ s.get 0 ≠ .ptr b := by
  have h : ∃ ok s, run .none (code true) 300 .osipParse [.none] (choices [1, 3, 14, 24, 27]) = .ret ok s := by
    have : (match run .none (code true) 300 .osipParse [.none] (choices [1, 3, 14, 24, 27]) with | .ret _ _ => true | _ => false) = true := by
      decide +kernel
    split at this
    · rename_i ok s e; exact ⟨ok, s, e⟩
    · cases this
  obtain ⟨ok, s, hr⟩ := h
  refine ⟨300, _, ok, s, hr, ?_⟩
  have hl : lost 1 (run .none (code true) 300 .osipParse [.none] (choices [1, 3, 14, 24, 27])) = true := by decide +kernel
  rw [hr] at hl
  simp only [lost, List.any_eq_true, Bool.and_eq_true, List.all_eq_true, List.mem_range, bne_iff_ne] at hl
  obtain ⟨b, -, h1, h2⟩ := hl
  exact ⟨b, h1, h2 0 (by omega)⟩

/-! ## Examples -/

/-- The result and the blocks that are in use at the end, with those that the arguments point to. -/
def summary (k : Nat) : Res → Option (Bool × List Nat × List Val)
  | .ret ok s => some (ok, (List.range s.heap.length).filter fun b => (s.cell b).owed, (List.range k).map s.get)
  | _ => none

/-- A message is parsed; 17 blocks were allocated, the event owns what is left of them. -/
example : summary 1 (run .notNodes (code false) 400 .osipParse [.none] (choices [34, 41, 45])) = some (true, [0], [.ptr 0]) := by
  decide +kernel

/-- An allocation fails after 22 blocks; all of them are given back. -/
example : summary 1 (run .notNodes (code false) 400 .osipParse [.none] (choices [27, 58])) = some (false, [], [.null]) := by decide +kernel

example (n : Nat) (picks : List Bool) : NoLeak 1 (run .notNodes (code false) n .osipParse [.none] picks) :=
  (c118_memory_partial .notNodes false .osipParse (by decide) [.none] (by decide) n picks).1

/-- A message that an event keeps is written: the text is the one block to give back. -/
example : summary 2 (run .none (code false) 400 .messageToStr [.kept, .none] (choices [6, 46, 49])) = some (true, [1], [.ptr 0, .ptr 1]) := by
  decide +kernel

/-- Writing a URI fails in the middle of the parameters. -/
example : summary 2 (run .notNodes (code false) 400 .uriToStr [.kept, .none] (choices [8, 14, 19])) = some (false, [], [.ptr 0, .null]) := by
  decide +kernel

/-- osip_message_set_via when the node of the list cannot be allocated: success, and block 1 is lost. -/
example : summary 1 (run .any (code false) 400 .setVia [.kept] (choices [12])) = some (true, [1], [.ptr 0]) := by decide +kernel

example : Fun.messageParse ∉ unsafeFuns .notNodes false ∧ Fun.uriToStr ∉ unsafeFuns .any true := by decide

end Osip.Own
