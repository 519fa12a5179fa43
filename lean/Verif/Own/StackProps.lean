import Verif.Own.StackContracts
import Verif.Own.Table

/-!
# C119: copies, dialogs, transactions, events and retransmissions: who gives back which block of memory

All theorems are about `run`, the executions of the functions of Verif/Own/Stack.lean for every input (every choice), every pattern of failing
allocations and every length of the execution.
-/

set_option autoImplicit false

namespace Osip.Own.Stack

theorem contract_calls : ∀ m ∈ [Mode.none, .notNodes, .any], ∀ f ∈ allFuns, ∀ args ∈ calls f, ∃ e ∈ contract m f, e.1 = args.map Arg.known := by
  decide +kernel

theorem mode_mem (m : Mode) : m ∈ [Mode.none, .notNodes, .any] := by cases m <;> decide

/-- Whatever the input and whichever allocations fail, the function, if it is none of `unsafeFuns`, never uses NULL, an uninitialised variable
or a block that was given back, gives back no block twice, and when it returns, with or without an error, every block in use is kept by a
structure or a list, or one of the arguments points to it; the blocks that structures kept before are not touched.

Missing: the functions of `unsafeFuns`, for which it is wrong (`c119_violated`). -/
theorem c119_memory_partial (m : Mode) (f : Fun) (h : f ∉ unsafeFuns m) (args : List Arg) (ha : args ∈ calls f) (n : Nat)
    (picks : List Bool) : NoLeak (code f).params (run m code n f args picks) ∧ StillKept args (run m code n f args picks) := by
  obtain ⟨e, he, hk⟩ := contract_calls m (mode_mem m) f (mem_allFuns f) args ha
  exact run_noLeak (contracts_ok m) n f args picks e (by rw [contracts, if_neg h]; exact he) hk

theorem makers_contract : ∀ m ∈ [Mode.none, .notNodes, .any], ∀ f ∈ makers,
    ∃ e ∈ contract m f, e.1 = [Arg.none].map Arg.known ∧ e.2.all madeLine = true := by decide +kernel

/-- A function that makes a structure or a text (a copy of a header or of a whole message, a dialog, a transaction, ...): on success the
variable of the caller points to it, and it is the only block that the caller has to give back; on an error the variable is NULL, and there is
nothing to give back. -/
theorem c119_made_partial (m : Mode) (f : Fun) (hf : f ∈ makers) (h : f ∉ unsafeFuns m) (n : Nat) (picks : List Bool) :
    Made (run m code n f [.none] picks) := by
  obtain ⟨e, he, hk, hm⟩ := makers_contract m (mode_mem m) f hf
  exact run_made (contracts_ok m) n f [.none] picks e (by rw [contracts, if_neg h]; exact he) hk hm

/-- What a function that gives a structure back leaves behind. -/
def Done (i : Nat) : Res → Prop
  | .ret _ s => (∃ b, s.get i = .ptr b ∧ s.cell b = .freed) ∧ ∀ d, (s.cell d).owed = true → ∃ j, j < i ∧ s.get j = .ptr d
  | .more => True
  | _ => False

theorem freers_safe : ∀ m ∈ [Mode.none, .notNodes, .any], ∀ f ∈ freers, f ∉ unsafeFuns m := by decide

theorem freers_contract : ∀ m ∈ [Mode.none, .notNodes, .any], ∀ f ∈ freers, ([A.live], [(true, [A.gone])]) ∈ contract m f := by decide +kernel

theorem done_of {m : Mode} {f : Fun} {args : List Arg} {n : Nat} {picks : List Bool} {i : Nat}
    {e : List A × List (Bool × List A)} (he : e ∈ contracts m f) (ha : e.1 = args.map Arg.known)
    (hp : (code f).params = i + 1) (hl : ∀ r ∈ e.2, r.2[i]? = some .gone) : Done i (run m code n f args picks) := by
  rcases run_line (contracts_ok m) n f args picks e he ha with hr | ⟨ok, s, vs, hr, h1, -, h5, h6⟩
  · rw [hr]; trivial
  · rw [hr]
    obtain ⟨b, hb, -, hc⟩ := h5 i _ (hl _ h1)
    refine ⟨⟨b, hb, hc⟩, ?_⟩
    intro d hd
    obtain ⟨j, v, hj, hv, ho, hg⟩ := h6 d hd
    refine ⟨j, ?_, hg⟩
    by_cases hji : j = i
    · subst hji
      rw [hl _ h1] at hv
      cases hv
      cases ho
    · omega

/-- osip_dialog_free, osip_transaction_free2, osip_event_free, ixt_free, ict_retransmit_ack, and osip_release when no retransmissions are
pending, give back the structure and everything that it owns. -/
theorem c119_freed (m : Mode) (f : Fun) (hf : f ∈ freers) (n : Nat) (picks : List Bool) : Done 0 (run m code n f [.block] picks) := by
  refine done_of (e := ([A.live], [(true, [A.gone])])) ?_ rfl ?_ ?_
  · rw [contracts, if_neg (freers_safe m (mode_mem m) f hf)]
    exact freers_contract m (mode_mem m) f hf
  · revert f; decide
  · intro r hr
    cases hr with
    | head => rfl
    | tail _ h => cases h

/-- osip_transaction_execute gives the event back, and the message of the event belongs to the transaction or was given back; whichever
handler ran, and also when none did. The transaction is `.block` or `.kept`.

Missing: nodes of lists that cannot be allocated (`c119_violated`). -/
theorem c119_event_done_partial (m : Mode) (hm : m ≠ .any) (t : Arg) (ht : t = .block ∨ t = .kept) (n : Nat) (picks : List Bool) :
    Done 1 (run m code n .transactionExecute [t, .block] picks) := by
  have h : Fun.transactionExecute ∉ unsafeFuns m := by cases m <;> first | exact absurd rfl hm | decide
  refine done_of (e := ([t.known, A.live], [(true, [t.known, A.gone])])) ?_ rfl rfl ?_
  · rw [contracts, if_neg h]
    rcases ht with rfl | rfl <;> simp [contract, Arg.known]
  · intro r hr
    cases hr with
    | head => rfl
    | tail _ h => cases h

/-- The block that argument `i` points to is somebody else's now, and nothing else has to be given back by the caller. -/
def Taken (i : Nat) (s : St) : Prop :=
  (∃ b, s.get i = .ptr b ∧ (s.cell b = .kept ∨ s.cell b = .freed)) ∧ ∀ d, (s.cell d).owed = false

/-- The caller still has to give back the block that argument `i` points to, and no other one. -/
def Left (i : Nat) (s : St) : Prop :=
  ∃ b, s.get i = .ptr b ∧ s.cell b = .live ∧ ∀ d, (s.cell d).owed = true → d = b

theorem one_param {s : St} {p : Nat} {v : A} (hp : p = 1)
    (h6 : ∀ d, (s.cell d).owed = true → ∃ (i : Nat) (w : A), i < p ∧ [v][i]? = some w ∧ w.own = true ∧ s.get i = .ptr d) :
    ∀ d, (s.cell d).owed = true → v.own = true ∧ s.get 0 = .ptr d := by
  intro d hd
  obtain ⟨i, w, hi, h7, h8, h9⟩ := h6 d hd
  have : i = 0 := by omega
  subst this
  simp only [List.getElem?_cons_zero, Option.some.injEq] at h7
  subst h7
  exact ⟨h8, h9⟩

/-- osip_find_transaction_and_add_event: the event belongs to the transaction if the function succeeds, and to the caller if it fails. -/
theorem c119_event_owner_partial (m : Mode) (hm : m ≠ .any) (n : Nat) (picks : List Bool) (ok : Bool) (s : St)
    (hr : run m code n .findAndAddEvent [.block] picks = .ret ok s) : (ok = true → Taken 0 s) ∧ (ok = false → Left 0 s) := by
  have h : Fun.findAndAddEvent ∉ unsafeFuns m := by cases m <;> decide
  have he : ([A.live], [(false, [A.live]), (true, [A.kept])]) ∈ contracts m .findAndAddEvent := by
    rw [contracts, if_neg h]
    simp [contract, hm]
  rcases run_line (contracts_ok m) n .findAndAddEvent [.block] picks _ he rfl with hr' | ⟨ok', s', vs, hr', h1, -, h5, h6⟩
  · rw [hr] at hr'; cases hr'
  · rw [hr] at hr'
    cases hr'
    simp only [List.mem_cons, Prod.mk.injEq, List.not_mem_nil, or_false] at h1
    rcases h1 with ⟨rfl, rfl⟩ | ⟨rfl, rfl⟩
    · refine ⟨fun h => by simp at h, fun _ => ?_⟩
      obtain ⟨b, hb, hc⟩ := h5 0 .live rfl
      refine ⟨b, hb, hc, ?_⟩
      intro d hd
      have := (one_param rfl h6 d hd).2
      rw [hb] at this; cases this; rfl
    · refine ⟨fun _ => ?_, fun h => by simp at h⟩
      obtain ⟨b, hb, hc⟩ := h5 0 .kept rfl
      refine ⟨⟨b, hb, .inl hc⟩, ?_⟩
      intro d
      cases hd : (s.cell d).owed with
      | false => rfl
      | true => have := (one_param rfl h6 d hd).1; cases this

/-- If the node of the queue cannot be allocated then it succeeds, and the event belongs to nobody. -/
theorem c119_event_owner_violated : ∃ n picks s, run .any code n .findAndAddEvent [.block] picks = .ret true s ∧ s.get 0 = .ptr 0 ∧
    s.cell 0 = .live := by
  refine ⟨20, [false, true], ⟨[.ptr 0], [.live], true, []⟩, ?_, ?_, ?_⟩ <;> decide +kernel

theorem takers_contract : ∀ m ∈ [Mode.none, .notNodes, .any], ∀ f ∈ takers, ∃ e ∈ contracts m f, e.1 = [Arg.block].map Arg.known ∧
    ∀ r ∈ e.2, r.2 = [A.kept] ∨ r.2 = [A.gone] := by decide +kernel

theorem takers_params : ∀ f ∈ takers, (code f).params = 1 := by decide

/-- The handlers that get a message: afterwards it belongs to the transaction or was given back, and what the transaction had in its place
was given back. -/
theorem c119_taken (m : Mode) (f : Fun) (hf : f ∈ takers) (n : Nat) (picks : List Bool) (ok : Bool) (s : St)
    (hr : run m code n f [.block] picks = .ret ok s) : Taken 0 s := by
  obtain ⟨e, he, hk, hl⟩ := takers_contract m (mode_mem m) f hf
  rcases run_line (contracts_ok m) n f [.block] picks _ he hk with hr' | ⟨ok', s', vs, hr', h1, -, h5, h6⟩
  · rw [hr] at hr'; cases hr'
  · rw [hr] at hr'
    cases hr'
    have hv : vs = [A.kept] ∨ vs = [A.gone] := hl _ h1
    rw [takers_params f hf] at h6
    rcases hv with rfl | rfl
    · obtain ⟨b, hb, hc⟩ := h5 0 .kept rfl
      refine ⟨⟨b, hb, .inl hc⟩, ?_⟩
      intro d
      cases hd : (s.cell d).owed with
      | false => rfl
      | true => have := (one_param rfl h6 d hd).1; cases this
    · obtain ⟨b, hb, -, hc⟩ := h5 0 .gone rfl
      refine ⟨⟨b, hb, .inr hc⟩, ?_⟩
      intro d
      cases hd : (s.cell d).owed with
      | false => rfl
      | true => have := (one_param rfl h6 d hd).1; cases this

/-! ## The functions that lose blocks -/

/-- osip_release with retransmissions to come. -/
def lostRelease : List (Fun × List Arg × List Nat) := [(.osipRelease true, [.block], [0])]

/-- The node of a list cannot be allocated. -/
def lostNode : List (Fun × List Arg × List Nat) := [
  (.listClone .param, [], [5, 6]),
  (.listClone .header, [], [5, 6]),
  (.listClone .sender, [], [10, 12]),
  (.listClone .via, [], [13, 15]),
  (.listClone .acceptEncoding, [], [9, 11]),
  (.listClone .contentType, [], [10, 12]),
  (.listClone .contentLength, [], [4, 5]),
  (.listClone .callInfo, [], [9, 11]),
  (.listClone .www, [], [14, 15]),
  (.listClone .authorization, [], [20, 21]),
  (.listClone .authInfo, [], [14, 15]),
  (.listClone .body, [], [11, 13]),
  (.uriClone, [.none], [13, 15]),
  (.fromClone, [.none], [9, 10]),
  (.viaClone, [.none], [12, 13]),
  (.contentTypeClone, [.none], [9, 10]),
  (.callInfoClone, [.none], [8, 9]),
  (.acceptEncodingClone, [.none], [8, 9]),
  (.bodyClone, [.none], [10, 11]),
  (.messageClone, [.none], [16, 18]),
  (.updateRouteSetAsUas, [.block], [2, 12, 13]),
  (.updateRouteSetAsUac, [.block], [2, 12, 13]),
  (.dialogInit, [.none], [18, 20]),
  (.dialogInitAsUac, [.none], [18, 20]),
  (.dialogInitAsUas, [.none], [19, 21]),
  (.setTopvia, [.none], [12, 13]),
  (.setFrom, [.none], [9, 10]),
  (.setTo, [.none], [9, 10]),
  (.transactionInit, [.none], [15, 17]),
  (.createTransaction, [.none], [16, 18]),
  (.ictCreateAck, [.none], [10, 12]),
  (.ictRcv3456xx, [.block, .block], [2, 13, 15]),
  (.transactionExecute, [.block, .block], [1, 2, 4, 7, 18, 20]),
  (.execute, [], [3, 4, 6, 7, 9, 12, 23, 25]),
  (.timersExecute, [], [1, 2, 4, 5]),
  (.start200ok, [], [1, 3]),
  (.startAck, [], [1, 3])]

theorem lostTable_ok : ∀ m ∈ [Mode.none, .notNodes, .any], ∀ f ∈ unsafeFuns m, ∃ w ∈ lostRelease ++ lostNode, w.1 = f ∧ w.2.1 ∈ calls f ∧
    lost (code f).params (run m code 300 f w.2.1 (choices w.2.2)) = true := by decide +kernel

/-- The functions of `unsafeFuns` are wrong, each for some input and some pattern of failing allocations. Together with `c119_memory_partial`
this tells exactly which functions are right, in each of the three cases. -/
theorem c119_violated (m : Mode) (f : Fun) (h : f ∈ unsafeFuns m) :
    ∃ args ∈ calls f, ∃ n picks, ¬ NoLeak (code f).params (run m code n f args picks) := by
  obtain ⟨w, -, -, h2, h3⟩ := lostTable_ok m (mode_mem m) f h
  exact ⟨w.2.1, h2, 300, choices w.2.2, lost_noLeak h3⟩

/-- osip_release loses the retransmissions that are pending, though no allocation fails: the list goes, its elements stay. -/
theorem c119_release_violated : ∃ n picks s b, run .none code n (.osipRelease true) [.block] picks = .ret true s ∧ s.cell b = .live ∧
    ∀ i, i < (code (.osipRelease true)).params → s.get i ≠ .ptr b := by
  refine ⟨50, [true], ⟨[.ptr 0, .null, .ptr 1], [.freed, .live], false, []⟩, 1, ?_, ?_, ?_⟩ <;> decide +kernel

/-- __osip_ict_init with a request without a Via: it fails, and the variable of the caller points to a block that was given back. The other
functions that make something set the variable to NULL (`c119_made_partial`). -/
theorem c119_dangling : ∃ n picks s b, run .none code n (.ictInit false) [.none] picks = .ret false s ∧ s.get 0 = .ptr b ∧
    s.cell b = .freed := by
  refine ⟨20, [true], ⟨[.ptr 0, .null, .junk], [.freed], false, []⟩, 0, ?_, ?_, ?_⟩ <;> decide +kernel

/-- osip_body_clone does not set the variable of the caller when it fails. -/
theorem c119_body_unset : ∃ n picks s, run .none code n .bodyClone [.none] picks = .ret false s ∧ s.get 0 = .junk := by
  refine ⟨20, [true], ⟨[.junk, .junk, .junk, .junk], [], false, []⟩, ?_, ?_⟩ <;> decide +kernel

/-! ## Examples -/

/-- A message with a Call-ID and a Contact is copied; the copy is the one block to give back. -/
example : summary 1 (run .none code 400 .messageClone [.none]
    (choices [5, 6, 7, 8, 9, 10, 11, 12, 13, 14, 15, 16, 18, 23, 24, 30, 31, 32, 33, 35, 36, 37, 38])) = some (true, [0], [.ptr 0]) := by
  decide +kernel

/-- An allocation fails while a transaction is made: everything is given back. -/
example : summary 1 (run .notNodes code 400 .transactionInit [.none] (choices [6])) = some (false, [], [.null]) := by decide +kernel

/-- A client transaction for an INVITE, and a dialog with a route. -/
example : summary 1 (run .none code 400 .transactionInit [.none] (choices [5, 9, 13, 17, 18, 19])) = some (true, [0], [.ptr 0]) ∧
    summary 1 (run .none code 400 .dialogInit [.none] (choices [9, 10, 14, 18])) = some (true, [0], [.ptr 0]) := by decide +kernel

/-- A response 3456xx is received: the transaction keeps it, the event is gone. -/
example : summary 2 (run .none code 400 .transactionExecute [.kept, .block] (choices [1, 2, 4])) = some (true, [], [.ptr 0, .ptr 1]) := by
  decide +kernel

example (n : Nat) (picks : List Bool) : Made (run .notNodes code n .messageClone [.none] picks) :=
  c119_made_partial .notNodes .messageClone (by decide) (by decide) n picks

example (n : Nat) (picks : List Bool) : Made (run .notNodes code n .transactionInit [.none] picks) :=
  c119_made_partial .notNodes .transactionInit (by decide) (by decide) n picks

example (n : Nat) (picks : List Bool) : Done 0 (run .any code n .dialogFree [.block] picks) :=
  c119_freed .any .dialogFree (by decide) n picks

end Osip.Own.Stack
