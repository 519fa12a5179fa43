import Verif.Own.SdpContracts
import Verif.Own.Table

/-!
# C120: descriptions of sessions: who gives back which block of memory

All theorems are about `run`, the executions of the functions of Verif/Own/Sdp.lean for every input (every choice), every pattern of failing
allocations and every length of the execution.
-/

set_option autoImplicit false

namespace Osip.Own.Sdp

theorem contract_calls : ∀ m ∈ [Mode.none, .notNodes, .any], ∀ f ∈ allFuns, ∀ args ∈ calls f, ∃ e ∈ contract m f, e.1 = args.map Arg.known := by
  decide +kernel

theorem mode_mem (m : Mode) : m ∈ [Mode.none, .notNodes, .any] := by cases m <;> decide

theorem mem_contracts {m : Mode} {f : Fun} (h : f ∉ unsafeFuns m) {e : List A × List (Bool × List A)} (he : e ∈ contract m f) :
    e ∈ contracts m f := by
  rw [contracts, if_pos (safe_of h)]
  exact he

/-- Whatever the input and whichever allocations fail, the function, if it is none of `unsafeFuns`, never uses NULL, an uninitialised variable
or a block that was given back, gives back no block twice, and when it returns, with or without an error, every block in use is kept by a
structure or a list, or one of the arguments points to it; the blocks that structures kept before are not touched.

Missing: the functions of `unsafeFuns`, for which it is wrong (`c120_violated`). -/
theorem c120_memory_partial (m : Mode) (f : Fun) (h : f ∉ unsafeFuns m) (args : List Arg) (ha : args ∈ calls f) (n : Nat)
    (picks : List Bool) : NoLeak (code f).params (run m code n f args picks) ∧ StillKept args (run m code n f args picks) := by
  obtain ⟨e, he, hk⟩ := contract_calls m (mode_mem m) f (mem_allFuns f) args ha
  exact run_noLeak (contracts_ok m) n f args picks e (mem_contracts h he) hk

theorem makers_contract : ∀ m ∈ [Mode.none, .notNodes, .any], ∀ f ∈ makers,
    ∃ e ∈ contract m f, e.1 = [Arg.none].map Arg.known ∧ e.2.all madeLine = true := by decide +kernel

/-- sdp_message_init and sdp_message_to_str: on success the variable of the caller points to the session or the text, and it is the only block
that the caller has to give back; on an error the variable is NULL, and there is nothing to give back. -/
theorem c120_made_partial (m : Mode) (f : Fun) (hf : f ∈ makers) (h : f ∉ unsafeFuns m) (n : Nat) (picks : List Bool) :
    Made (run m code n f [.none] picks) := by
  obtain ⟨e, he, hk, hm⟩ := makers_contract m (mode_mem m) f hf
  exact run_made (contracts_ok m) n f [.none] picks e (mem_contracts h he) hk hm

/-- What a function that gives a structure back leaves behind. -/
def Done : Res → Prop
  | .ret _ s => (∃ b, s.get 0 = .ptr b ∧ s.cell b = .freed) ∧ ∀ d, (s.cell d).owed = false
  | .more => True
  | _ => False

theorem freers_contract : ∀ m ∈ [Mode.none, .notNodes, .any], ∀ f ∈ freers, f ∉ unsafeFuns m ∧
    ([A.live], [(true, [A.gone])]) ∈ contract m f ∧ (code f).params = 1 := by decide +kernel

/-- The functions that give a session or a part of it back give back everything that it owns. -/
theorem c120_freed (m : Mode) (f : Fun) (hf : f ∈ freers) (n : Nat) (picks : List Bool) : Done (run m code n f [.block] picks) := by
  obtain ⟨h1, h2, h3⟩ := freers_contract m (mode_mem m) f hf
  rcases run_line (contracts_ok m) n f [.block] picks _ (mem_contracts h1 h2) rfl with hr | ⟨ok, s, vs, hr, h4, -, h5, h6⟩
  · rw [hr]; trivial
  · rw [hr]
    simp only [List.mem_cons, Prod.mk.injEq, List.not_mem_nil, or_false] at h4
    obtain ⟨-, rfl⟩ := h4
    obtain ⟨b, hb, -, hc⟩ := h5 0 _ rfl
    refine ⟨⟨b, hb, hc⟩, ?_⟩
    intro d
    cases hd : (s.cell d).owed with
    | false => rfl
    | true =>
      obtain ⟨i, v, hi, hv, ho, -⟩ := h6 d hd
      have : i = 0 := by omega
      subst this
      cases hv
      cases ho

/-- The caller still has to give back the block that argument `i` points to, and no other one. -/
def Left (i : Nat) (s : St) : Prop :=
  ∃ b, s.get i = .ptr b ∧ s.cell b = .live ∧ ∀ d, (s.cell d).owed = true → d = b

/-- sdp_message_parse with a new session and a text in order: whether it succeeds or not, the session is the one block that the caller has to
give back, and what was read before an error belongs to it.

Missing: texts with lines more often or in another order (`c120_text_violated`), and nodes of lists that cannot be allocated
(`c120_violated`). -/
theorem c120_parse_partial (m : Mode) (hm : m ≠ .any) (n : Nat) (picks : List Bool) (ok : Bool) (s : St)
    (hr : run m code n (.messageParse .ordered) [.empty] picks = .ret ok s) : Left 0 s := by
  have h : Fun.messageParse .ordered ∉ unsafeFuns m := by cases m <;> first | exact absurd rfl hm | decide
  have he : ([A.fresh], [(false, [A.live]), (true, [A.live])]) ∈ contract m (.messageParse .ordered) := by simp [contract]
  rcases run_line (contracts_ok m) n (.messageParse .ordered) [.empty] picks _ (mem_contracts h he) rfl with
    hr' | ⟨ok', s', vs, hr', h1, -, h5, h6⟩
  · rw [hr] at hr'; cases hr'
  · rw [hr] at hr'
    cases hr'
    have hv : vs = [A.live] := by
      simp only [List.mem_cons, Prod.mk.injEq, List.not_mem_nil, or_false] at h1
      rcases h1 with h1 | h1 <;> exact h1.2
    subst hv
    obtain ⟨b, hb, hc⟩ := h5 0 .live rfl
    refine ⟨b, hb, hc, ?_⟩
    intro d hd
    obtain ⟨i, w, hi, -, -, h9⟩ := h6 d hd
    have : i = 0 := by
      have : (code (.messageParse .ordered)).params = 1 := by decide
      omega
    subst this
    rw [hb] at h9; cases h9; rfl

/-- Whose the strings are: the session's after success, and the caller's after an error. -/
def GivenIf (ok : Bool) (args : List Arg) (s : St) : Prop :=
  ∀ (i : Nat), args[i + 1]? = some .block → ∃ b, s.get (i + 1) = .ptr b ∧ s.cell b = if ok then .kept else .live

theorem givers_contract : ∀ m ∈ [Mode.none, .notNodes], ∀ f ∈ givers, f ∉ unsafeFuns m ∧ ∀ args ∈ calls f, ∃ e ∈ contract m f,
    e.1 = args.map Arg.known ∧ ∀ r ∈ e.2, r.2.tail = (args.tail.map Arg.known).map fun v => if r.1 then given v else v := by decide +kernel

/-- The functions that give strings of a program to a session: on success every string belongs to the session, on an error every string is
still the caller's.

Missing: fields that were set before (`c120_set_violated`), and nodes of lists that cannot be allocated (`c120_added_violated`). -/
theorem c120_given_partial (m : Mode) (hm : m ≠ .any) (f : Fun) (hf : f ∈ givers) (args : List Arg) (ha : args ∈ calls f) (n : Nat)
    (picks : List Bool) (ok : Bool) (s : St) (hr : run m code n f args picks = .ret ok s) : GivenIf ok args s := by
  obtain ⟨h, hc⟩ := givers_contract m (by cases m <;> first | exact absurd rfl hm | decide) f hf
  obtain ⟨e, he, hk, hl⟩ := hc args ha
  rcases run_line (contracts_ok m) n f args picks e (mem_contracts h he) hk with hr' | ⟨ok', s', vs, hr', h1, -, h5, -⟩
  · rw [hr] at hr'; cases hr'
  · rw [hr] at hr'
    cases hr'
    intro i hi
    have hv := hl _ h1
    have hi' : vs[i + 1]? = some (if ok then A.kept else .live) := by
      rw [← List.getElem?_tail, hv, List.getElem?_map, List.getElem?_map, List.getElem?_tail, hi]
      cases ok <;> rfl
    have := h5 _ _ hi'
    cases ok
    · obtain ⟨b, hb, hc⟩ := this
      exact ⟨b, hb, hc⟩
    · obtain ⟨b, hb, hc⟩ := this
      exact ⟨b, hb, hc⟩

/-! ## The functions that lose blocks -/

/-- A pointer is overwritten. -/
def lostOverwritten : List (Fun × List Arg × List Nat) := [
  (.parseV true, [.block], [0]),
  (.parseO true, [.block], [0]),
  (.parseU true, [.block], [0]),
  (.parseZ true, [.block], [0]),
  (.messageParse .new, [.empty], [16]),
  (.messageParse .old, [.block], [27]),
  (.messageClone true, [.none], [20, 21, 23, 24, 27, 28, 45]),
  (.valueSet false, [.block, .block], [0]),
  (.infoSet false, [.block, .block], [1]),
  (.originSet false, [.block, .block, .block, .block, .block, .block, .block], [0]),
  (.keySet false, [.block, .block, .block], [1]),
  (.connectionAdd false, [.block, .block, .block, .block, .block, .block], [1, 2])]

/-- The text cannot be made longer. -/
def lostText : List (Fun × List Arg × List Nat) := [
  (.messageParse .new, [.empty], [25]),
  (.messageParse .old, [.block], [36]),
  (.appendString, [.block], [0, 1]),
  (.appendConnection, [.block], [1, 2]),
  (.appendPair, [.block], [1, 2]),
  (.appendTimeDescr, [.block], [1, 2]),
  (.appendMedia, [.block], [1, 2]),
  (.toStr, [.none], [2, 3]),
  (.messageClone false, [.none], [3, 4]),
  (.messageClone true, [.none], [3, 4]),
  (.keySet false, [.block, .block, .block], [2]),
  (.connectionAdd false, [.block, .block, .block, .block, .block, .block], [2, 3])]

/-- The node of a list cannot be allocated. -/
def lostNode : List (Fun × List Arg × List Nat) := [
  (.parseE, [], [3]),
  (.parseC, [.null, .kept], [10]),
  (.parseB, [.null], [7]),
  (.parseT, [], [7]),
  (.parseR, [], [4]),
  (.parseA, [.null], [6]),
  (.parseM, [.null, .null, .null], [14, 15]),
  (.messageParse .ordered, [.empty], [32, 34]),
  (.timeDescrAdd, [.block, .block, .block], [1]),
  (.pairAdd, [.block, .block, .block], [2]),
  (.connectionAdd true, [.block, .block, .block, .block, .block, .block], [3]),
  (.connectionAdd false, [.block, .block, .block, .block, .block, .block], [3]),
  (.mediaAdd, [.block, .block, .block, .block, .block], [1])]

theorem lostTable_ok : ∀ m ∈ [Mode.none, .notNodes, .any], ∀ f ∈ unsafeFuns m, ∃ w ∈ lostOverwritten ++ lostText ++ lostNode,
    w.1 = f ∧ w.2.1 ∈ calls f ∧ lost (code f).params (run m code 300 f w.2.1 (choices w.2.2)) = true := by decide +kernel

/-- The functions of `unsafeFuns` are wrong, each for some input and some pattern of failing allocations. Together with `c120_memory_partial`
this tells exactly which functions are right, in each of the three cases. -/
theorem c120_violated (m : Mode) (f : Fun) (h : f ∈ unsafeFuns m) :
    ∃ args ∈ calls f, ∃ n picks, ¬ NoLeak (code f).params (run m code n f args picks) := by
  obtain ⟨w, -, -, h2, h3⟩ := lostTable_ok m (mode_mem m) f h
  exact ⟨w.2.1, h2, 300, choices w.2.2, lost_noLeak h3⟩

/-- The call succeeds, and a block that the caller does not know is in use and kept by nothing. -/
def LostThough (k : Nat) (r : Res) : Prop :=
  ∃ s b, r = .ret true s ∧ (s.cell b).owed = true ∧ ∀ i, i < k → s.get i ≠ .ptr b

def lostThough (k : Nat) : Res → Bool
  | .ret true s => (List.range s.heap.length).any fun b => (s.cell b).owed && (List.range k).all fun i => s.get i != .ptr b
  | _ => false

theorem lostThough_iff {k : Nat} {r : Res} (h : lostThough k r = true) : LostThough k r := by
  cases r with
  | ret ok s =>
    cases ok with
    | false => cases h
    | true =>
      simp only [lostThough, List.any_eq_true, Bool.and_eq_true, List.all_eq_true, List.mem_range, bne_iff_ne] at h
      obtain ⟨b, -, h1, h2⟩ := h
      exact ⟨s, b, rfl, h1, h2⟩
  | _ => cases h

/-- A text alone makes sdp_message_parse lose a block, though no allocation fails and the call succeeds: a line is there too often (s= before and
after o=, or i= twice for a media, ...). -/
theorem c120_text_violated : ∃ n picks, LostThough 1 (run .none code n (.messageParse .new) [.empty] picks) :=
  ⟨600, choices [1, 12, 35, 41, 64, 69, 71, 73, 102, 103, 111], lostThough_iff (by decide +kernel)⟩

/-- Setting a field a second time loses what it held, though no allocation fails and the call succeeds. -/
theorem c120_set_violated : ∀ f ∈ [Fun.valueSet false, .infoSet false, .originSet false, .keySet false, .connectionAdd false],
    ∃ args ∈ calls f, ∃ n picks, LostThough (code f).params (run .none code n f args picks) := by
  have : ∀ f ∈ [Fun.valueSet false, .infoSet false, .originSet false, .keySet false, .connectionAdd false],
      ∃ w ∈ lostOverwritten, w.2.1 ∈ calls f ∧ lostThough (code f).params (run .none code 300 f w.2.1 (choices w.2.2)) = true := by
    decide +kernel
  intro f hf
  obtain ⟨w, -, h1, h2⟩ := this f hf
  exact ⟨w.2.1, h1, 300, choices w.2.2, lostThough_iff h2⟩

/-- sdp_message_clone that fails leaves a pointer to a block that was given back. -/
theorem c120_dangling : ∃ n picks s b, run .none code n (.messageClone false) [.none] picks = .ret false s ∧ s.get 0 = .ptr b ∧
    s.cell b = .freed := by
  refine ⟨300, choices [0], ⟨[.ptr 0, .null], [.freed], false, []⟩, 0, ?_, ?_, ?_⟩ <;> decide +kernel

/-- sdp_message_e_email_add and its like succeed though the node of the list could not be allocated, and the string is still the
caller's. -/
theorem c120_added_violated : ∃ n picks s, run .any code n .stringAdd [.block, .block] picks = .ret true s ∧ s.get 1 = .ptr 1 ∧
    s.cell 1 = .live := by
  refine ⟨300, choices [0], ⟨[.ptr 0, .ptr 1], [.live, .live], false, []⟩, ?_, ?_, ?_⟩ <;> decide +kernel

/-! ## Examples -/

/-- A session is read; it is the one block to give back. -/
example : summary 1 (run .none code 600 (.messageParse .ordered) [.empty]
    (choices [1, 23, 30, 51, 67, 71, 79, 88, 96, 108, 117])) = some (true, [0], [.ptr 0]) := by decide +kernel

/-- An allocation fails while a session is read: the session is the one block to give back. -/
example : summary 1 (run .notNodes code 600 (.messageParse .ordered) [.empty] (choices [1, 2])) = some (false, [0], [.ptr 0]) := by
  decide +kernel

/-- A name is set: it is the session's; there is no session: it is still the caller's. -/
example : summary 2 (run .none code 100 (.valueSet true) [.block, .block] []) = some (true, [0], [.ptr 0, .ptr 1]) ∧
    summary 2 (run .none code 100 (.valueSet true) [.null, .block] []) = some (false, [0], [.null, .ptr 0]) := by decide +kernel

example (n : Nat) (picks : List Bool) : Done (run .any code n .messageFree [.block] picks) :=
  c120_freed .any .messageFree (by decide) n picks

example (n : Nat) (picks : List Bool) : Made (run .none code n .toStr [.none] picks) :=
  c120_made_partial .none .toStr (by decide) (by decide) n picks

end Osip.Own.Sdp
