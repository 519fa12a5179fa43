import Verif.Ixt.Model
import Verif.TimeProps
import Verif.Dialog.Props

/-!
# C30: retransmission of 2xx responses
-/

set_option autoImplicit false

namespace Osip

/-! ## Specification -/

/-- The gap before retransmission number `k + 1`, after retransmission number `k` (from 1), in
milliseconds: it doubles from T1 and is never more than T2. -/
def ixtGap (k : Nat) : Int := min 4000 (500 * 2 ^ k)

/-- Sum of the gaps before retransmission number `k` (from 0), the first being T1 plus ten
milliseconds. -/
def ixtOffset : Nat → Int
  | 0 => 510
  | k + 1 => ixtOffset k + ixtGap (k + 1)

/-- The clock readings of the call are normal time stamps. -/
def IxtOp.NormalClock : IxtOp → Prop
  | .start200 now _ _ _ _ => now.Normal
  | .startAck now _ _ _ _ _ => now.Normal
  | .execute c => c.Normal
  | _ => True

/-- The number the CSeq of the message has. -/
def CSeqNumber (m : Msg) (n : Str) : Prop := ∃ c, m.cseq = some c ∧ c.number = some n

/-- The entry keeps a 2xx which this ACK acknowledges according to `osip_dialog_match_as_uas`:
same CSeq number, and the ACK belongs to its dialog. -/
def AckedBy (heap : Nat → Dialog) (ack : Msg) (x : Ixt) : Prop :=
  ∃ m n d, x.msg2xx = some m ∧ CSeqNumber m n ∧ CSeqNumber ack n ∧ x.dialog = some d ∧
    dialog_match_as_uas (some (heap d)) ack = some 0

/-! ## The loops -/

/-- What `osip_retransmissions_execute` leaves of an entry. -/
def ixtStep (current : TimeVal) (x : Ixt) : Option Ixt :=
  if (ixt_retransmit x current).1.counter = 0 then none else some (ixt_retransmit x current).1

theorem executeLoop_eq (current : TimeVal) (a l : List Ixt) (sent : List IxtSend) :
    executeLoop current (a ++ l) a.length sent =
      (a ++ l.filterMap (ixtStep current), sent ++ l.flatMap (fun x => (ixt_retransmit x current).2)) := by
  induction l generalizing a sent with
  | nil => rw [executeLoop]; simp
  | cons x xs ih =>
    rw [executeLoop]
    rw [dif_pos (by simp)]
    have hget : (a ++ x :: xs)[a.length]'(by simp) = x := by simp
    simp only [hget]
    have hset : (a ++ x :: xs).set a.length (ixt_retransmit x current).1
        = a ++ (ixt_retransmit x current).1 :: xs := by simp
    rw [hset]
    by_cases hc : (ixt_retransmit x current).1.counter = 0
    · rw [if_pos hc]
      have her : (a ++ (ixt_retransmit x current).1 :: xs).eraseIdx a.length = a ++ xs := by
        rw [List.eraseIdx_append_of_length_le (by simp)]; simp
      rw [her, ih]
      simp [ixtStep, hc, List.append_assoc]
    · rw [if_neg hc]
      have := ih (a ++ [(ixt_retransmit x current).1]) (sent ++ (ixt_retransmit x current).2)
      simp only [List.append_assoc, List.singleton_append, List.length_append, List.length_cons,
        List.length_nil] at this
      rw [this]
      simp [ixtStep, hc]

theorem execute_eq (w : IxtWorld) (current : TimeVal) :
    retransmissions_execute w current =
      { w with list := w.list.filterMap (ixtStep current)
               sent := w.sent ++ w.list.flatMap (fun x => (ixt_retransmit x current).2) } := by
  have := executeLoop_eq current [] w.list w.sent
  simp only [List.nil_append, List.length_nil] at this
  simp [retransmissions_execute, this]

theorem stopDialogLoop_eq (d : Option Nat) (a l : List Ixt) :
    stopDialogLoop d (a ++ l) a.length = a ++ l.filter (fun x => decide (x.dialog ≠ d)) := by
  induction l generalizing a with
  | nil => rw [stopDialogLoop]; simp
  | cons x xs ih =>
    rw [stopDialogLoop, dif_pos (by simp)]
    have hget : (a ++ x :: xs)[a.length]'(by simp) = x := by simp
    simp only [hget]
    by_cases hd : x.dialog = d
    · rw [if_pos hd]
      have her : (a ++ x :: xs).eraseIdx a.length = a ++ xs := by
        rw [List.eraseIdx_append_of_length_le (by simp)]; simp
      rw [her, ih]; simp [hd]
    · rw [if_neg hd]
      have := ih (a ++ [x])
      simp only [List.append_assoc, List.singleton_append, List.length_append, List.length_cons,
        List.length_nil] at this
      rw [this]; simp [hd]

theorem cseq_bind_iff {m : Option Msg} {n : Str} :
    (m.bind (·.cseq)).bind (·.number) = some n ↔ ∃ m', m = some m' ∧ CSeqNumber m' n := by
  cases m with
  | none => simp
  | some m =>
    simp only [Option.bind_some, Option.some.injEq, CSeqNumber, Option.bind_eq_some_iff]
    constructor
    · intro h; exact ⟨m, rfl, h⟩
    · rintro ⟨m', rfl, h⟩; exact h

theorem match_null {ack : Msg} : dialog_match_as_uas none ack ≠ some 0 := by
  simp [dialog_match_as_uas, OSIP_BADPARAMETER]

theorem stop200Loop_spec {heap : Nat → Dialog} {ack : Msg} {number : Str}
    (hn : CSeqNumber ack number) (a l : List Ixt) {r : Option Nat × List Ixt}
    (h : stop200Loop heap ack number (a ++ l) a.length = some r) :
    (r = (none, a ++ l) ∧ ∀ x ∈ l, ¬ AckedBy heap ack x) ∨
    ∃ b x c, l = b ++ x :: c ∧ (∀ y ∈ b, ¬ AckedBy heap ack y) ∧ AckedBy heap ack x ∧
      r = (x.dialog, a ++ b ++ c) := by
  induction l generalizing a with
  | nil =>
    rw [stop200Loop] at h; simp at h
    left; simp [← h]
  | cons x xs ih =>
    have huniq : ∀ n, CSeqNumber ack n → n = number := by
      rintro n ⟨c, h1, h2⟩
      obtain ⟨c', h3, h4⟩ := hn
      rw [h1] at h3; simp at h3; subst h3
      rw [h2] at h4; simpa using h4
    rw [stop200Loop, dif_pos (by simp)] at h
    have hget : (a ++ x :: xs)[a.length]'(by simp) = x := by simp
    simp only [hget] at h
    have hnext : ¬ AckedBy heap ack x →
        stop200Loop heap ack number (a ++ x :: xs) (a.length + 1) = some r →
        (r = (none, a ++ x :: xs) ∧ ∀ y ∈ x :: xs, ¬ AckedBy heap ack y) ∨
        ∃ b y c, x :: xs = b ++ y :: c ∧ (∀ z ∈ b, ¬ AckedBy heap ack z) ∧ AckedBy heap ack y ∧
          r = (y.dialog, a ++ b ++ c) := by
      intro hx hr
      have := ih (a ++ [x]) (by simpa using hr)
      rcases this with ⟨h1, h2⟩ | ⟨b, y, c, h1, h2, h3, h4⟩
      · left
        refine ⟨by simpa using h1, ?_⟩
        intro y hy
        rcases List.mem_cons.1 hy with rfl | hy
        · exact hx
        · exact h2 y hy
      · right
        refine ⟨x :: b, y, c, by simp [h1], ?_, h3, by simpa using h4⟩
        intro z hz
        rcases List.mem_cons.1 hz with rfl | hz
        · exact hx
        · exact h2 z hz
    split at h
    · rename_i hm
      refine hnext ?_ h
      rintro ⟨m, n, d, h1, h2, _⟩
      rw [cseq_bind_iff.2 ⟨m, h1, h2⟩] at hm
      simp at hm
    · rename_i n hm
      obtain ⟨m, hm1, hm2⟩ := cseq_bind_iff.1 hm
      split at h
      · simp at h
      · rename_i q hq
        split at h
        · rename_i hc
          right
          simp only [Option.some.injEq] at h
          refine ⟨[], x, xs, rfl, by simp, ?_, ?_⟩
          · cases hd : x.dialog with
            | none => rw [hd, hc.1] at hq; exact absurd hq match_null
            | some d =>
              rw [hd, hc.1] at hq
              rw [hc.2] at hm2
              exact ⟨m, number, d, hm1, hm2, hn, hd, hq⟩
          · rw [← h]
            have her : (a ++ x :: xs).eraseIdx a.length = a ++ xs := by
              rw [List.eraseIdx_append_of_length_le (by simp)]; simp
            simp [her]
        · rename_i hc
          refine hnext ?_ h
          rintro ⟨m', n', d, h1, h2, h3, h4, h5⟩
          have h6 := cseq_bind_iff.2 ⟨m', h1, h2⟩
          rw [hm] at h6
          simp only [Option.some.injEq] at h6
          rw [h4] at hq
          simp only [Option.map_some] at hq
          rw [h5] at hq
          simp only [Option.some.injEq] at hq
          exact hc ⟨hq.symm, h6.trans (huniq n' h3)⟩

/-! ## C30 -/

/-- An ACK removes at most one entry: the first which keeps a 2xx with the CSeq number of the ACK
and whose dialog the ACK matches. It returns that dialog. All other entries stay.
Missing for C30: `osip_dialog_match_as_uas` does not look at the To tag, so the ACK of one dialog
can stop the 2xx of another (`c30_violated`). -/
theorem c30_ack_partial {w w' : IxtWorld} {heap : Nat → Dialog} {ack : Msg} {d : Option Nat}
    (h : stop_200ok w heap ack = some (d, w')) :
    w'.sent = w.sent ∧
    ((d = none ∧ w'.list = w.list ∧ ∀ x ∈ w.list, ¬ AckedBy heap ack x) ∨
    ∃ b x c, w.list = b ++ x :: c ∧ (∀ y ∈ b, ¬ AckedBy heap ack y) ∧ AckedBy heap ack x ∧
      d = x.dialog ∧ w'.list = b ++ c) := by
  unfold stop_200ok at h
  split at h
  · rename_i hn
    simp only [Option.some.injEq, Prod.mk.injEq] at h
    obtain ⟨rfl, rfl⟩ := h
    refine ⟨rfl, Or.inl ⟨rfl, rfl, ?_⟩⟩
    rintro x _ ⟨m, n, d, _, _, ⟨c, h1, h2⟩, _⟩
    rw [h1] at hn; simp [h2] at hn
  · rename_i number hn
    have hnum : CSeqNumber ack number := by
      rw [Option.bind_eq_some_iff] at hn; exact hn
    split at h
    · simp at h
    · rename_i d0 l hl
      simp only [Option.some.injEq, Prod.mk.injEq] at h
      obtain ⟨rfl, rfl⟩ := h
      refine ⟨rfl, ?_⟩
      have := stop200Loop_spec hnum [] w.list (by simpa using hl)
      rcases this with ⟨h1, h2⟩ | ⟨b, x, c, h1, h2, h3, h4⟩
      · simp only [List.nil_append, Prod.mk.injEq] at h1
        exact Or.inl ⟨h1.1, h1.2, h2⟩
      · simp only [List.nil_append, Prod.mk.injEq] at h4
        exact Or.inr ⟨b, x, c, h1, h2, h3, h4.1, h4.2⟩

/-- Hence only a 2xx of a dialog with the Call-ID and remote tag of the ACK, and with its CSeq
number, is stopped. -/
theorem c30_ack_identifiers {w w' : IxtWorld} {heap : Nat → Dialog} {ack : Msg} {d : Option Nat}
    (h : stop_200ok w heap ack = some (d, w')) {x : Ixt} (hx : x ∈ w.list) (hx' : x ∉ w'.list)
    {p : Nat} (hp : x.dialog = some p) {cid lt rt v : Str} {f t : From}
    (h1 : (heap p).call_id = some cid) (h2 : (heap p).local_tag = some lt)
    (h3 : (heap p).remote_tag = some rt)
    (h4 : ack.from_ = some f) (h5 : ack.to = some t) (h6 : HasTag f v) :
    CallIdText ack cid ∧ v = rt ∧ ∃ m n, x.msg2xx = some m ∧ CSeqNumber m n ∧ CSeqNumber ack n := by
  obtain ⟨_, hr⟩ := c30_ack_partial h
  rcases hr with ⟨_, hl, _⟩ | ⟨b, y, c, hl, _, hy, _, hl'⟩
  · rw [hl] at hx'; exact absurd hx hx'
  · have : x = y := by
      rw [hl] at hx; rw [hl'] at hx'
      simp at hx hx'
      rcases hx with h | h | h
      · exact absurd h hx'.1
      · exact h
      · exact absurd h hx'.2
    subst this
    obtain ⟨m, n, d, e1, e2, e3, e4, e5⟩ := hy
    rw [hp] at e4; simp only [Option.some.injEq] at e4; subst e4
    have := (c35_match_partial h1 h2 h3 h4 h5 h6).1 e5
    exact ⟨this.1, this.2, m, n, e1, e2, e3⟩

/-- Destroying a dialog removes exactly its entries, keeping the others in order. -/
theorem c30_dialog (w : IxtWorld) (d : Option Nat) :
    (stop_from_dialog w d).sent = w.sent ∧
    (stop_from_dialog w d).list.Sublist w.list ∧
    (∀ x ∈ w.list, x ∈ (stop_from_dialog w d).list ↔ x.dialog ≠ d) ∧
    (∀ p : Ixt → Bool, (∀ x, p x = true → x.dialog ≠ d) →
      (stop_from_dialog w d).list.countP p = w.list.countP p) := by
  have hl : (stop_from_dialog w d).list = w.list.filter (fun x => decide (x.dialog ≠ d)) := by
    have := stopDialogLoop_eq d [] w.list
    simpa [stop_from_dialog] using this
  refine ⟨rfl, ?_, ?_, ?_⟩
  · rw [hl]; exact List.filter_sublist
  · intro x hx; rw [hl]; simp [hx]
  · intro p hp
    rw [hl, List.countP_filter]
    apply List.countP_congr
    intro x _
    simp only [decide_not, Bool.and_eq_true, Bool.not_eq_eq_eq_not, Bool.not_true,
      decide_eq_false_iff_not]
    exact ⟨fun h => h.1, fun h => ⟨h, hp x h⟩⟩

/-! ### The schedule over whole histories -/

/-- State of the entry `x0` with the identifier `id`, created at `now`. -/
structure IxtInv (x0 : Ixt) (now : TimeVal) (w : IxtWorld) : Prop where
  fresh : x0.id < w.next
  below : ∀ x ∈ w.list, x.id < w.next
  sentBelow : ∀ s ∈ w.sent, s.id < w.next
  entry : ∀ x ∈ w.list, x.id = x0.id → ∃ n : Nat, n < 10 ∧
    (x0.ack.isSome = true ∨ x0.msg2xx.isSome = true → (w.sent.filter (·.id == x0.id)).length = n) ∧
    x.counter = 10 - n ∧ x.interval = ixtGap n ∧ x.start.Normal ∧
    x.start.micros = now.micros + 1000 * ixtOffset n ∧
    x.msg2xx = x0.msg2xx ∧ x.ack = x0.ack ∧ x.dest = x0.dest ∧ x.port = x0.port ∧
    x.sock = x0.sock ∧ x.dialog = x0.dialog
  once : (w.list.filter (·.id == x0.id)).length ≤ 1
  bound : (w.sent.filter (·.id == x0.id)).length ≤ 10
  sends : ∀ k s, (w.sent.filter (·.id == x0.id))[k]? = some s →
    now.micros + 1000 * ixtOffset k < s.time.micros ∧
    (x0.ack = some s.msg ∨ (x0.ack = none ∧ x0.msg2xx = some s.msg)) ∧ s.dest = x0.dest ∧
    s.port = x0.port ∧ s.sock = x0.sock

theorem ixtGap_double (n : Nat) : (if ixtGap n * 2 > DEFAULT_T2 then DEFAULT_T2 else ixtGap n * 2)
    = ixtGap (n + 1) := by
  unfold ixtGap DEFAULT_T2
  have : (500 * 2 ^ (n + 1) : Int) = 2 * (500 * 2 ^ n) := by rw [Int.pow_succ]; omega
  rw [this]
  generalize (500 * 2 ^ n : Int) = y
  split <;> omega

theorem ixtGap_range (n : Nat) : 0 ≤ ixtGap n ∧ ixtGap n < 1000000 := by
  unfold ixtGap
  have : (0 : Int) < 2 ^ n := Int.pow_pos (by decide)
  omega

theorem retransmit_id (x : Ixt) (c : TimeVal) : (ixt_retransmit x c).1.id = x.id := by
  unfold ixt_retransmit; split <;> rfl

theorem retransmit_send_id {x : Ixt} {c : TimeVal} {s : IxtSend}
    (h : s ∈ (ixt_retransmit x c).2) : s.id = x.id := by
  unfold ixt_retransmit at h
  split at h
  · dsimp only at h
    split at h
    · simp at h; simp [h]
    · split at h
      · simp at h; simp [h]
      · simp at h
  · simp at h

theorem step_id {x y : Ixt} {c : TimeVal} (h : ixtStep c x = some y) : y.id = x.id := by
  unfold ixtStep at h
  split at h
  · simp at h
  · simp only [Option.some.injEq] at h; rw [← h, retransmit_id]

theorem filter_sends (l : List Ixt) (c : TimeVal) (id : Nat) :
    (l.flatMap (fun x => (ixt_retransmit x c).2)).filter (·.id == id) =
      (l.filter (·.id == id)).flatMap (fun x => (ixt_retransmit x c).2) := by
  induction l with
  | nil => rfl
  | cons x xs ih =>
    simp only [List.flatMap_cons, List.filter_append, ih, List.filter_cons]
    by_cases hx : x.id = id
    · simp only [hx, beq_self_eq_true, if_true, List.flatMap_cons, List.append_cancel_right_eq]
      rw [List.filter_eq_self]
      intro s hs; rw [retransmit_send_id hs, hx]; simp
    · have : (ixt_retransmit x c).2.filter (·.id == id) = [] := by
        rw [List.filter_eq_nil_iff]
        intro s hs; rw [retransmit_send_id hs]; simpa using hx
      simp [hx, this]

theorem filter_step (l : List Ixt) (c : TimeVal) (id : Nat) :
    (l.filterMap (ixtStep c)).filter (·.id == id) = (l.filter (·.id == id)).filterMap (ixtStep c) := by
  induction l with
  | nil => rfl
  | cons x xs ih =>
    rw [List.filterMap_cons]
    cases hs : ixtStep c x with
    | none =>
      simp only [ih, List.filter_cons]
      split <;> simp [hs]
    | some y =>
      simp only [List.filter_cons, ih, step_id hs]
      split <;> simp [hs]

/-- Removing entries keeps the invariant. -/
theorem IxtInv.sublist {x0 : Ixt} {now : TimeVal} {w w' : IxtWorld} (h : IxtInv x0 now w)
    (hl : w'.list.Sublist w.list) (hs : w'.sent = w.sent) (hn : w'.next = w.next) :
    IxtInv x0 now w' where
  fresh := by rw [hn]; exact h.fresh
  below := by rw [hn]; exact fun x hx => h.below x (hl.subset hx)
  sentBelow := by rw [hn, hs]; exact h.sentBelow
  entry := by rw [hs]; exact fun x hx => h.entry x (hl.subset hx)
  once := by
    have := (hl.filter (·.id == x0.id)).length_le
    have := h.once; omega
  bound := by rw [hs]; exact h.bound
  sends := by rw [hs]; exact h.sends

/-- Adding another entry keeps the invariant. -/
theorem IxtInv.add {x0 : Ixt} {now : TimeVal} {w : IxtWorld} (h : IxtInv x0 now w) (y : Ixt)
    (hy : y.id = w.next) : IxtInv x0 now { w with list := y :: w.list, next := w.next + 1 } where
  fresh := Nat.lt_succ_of_lt h.fresh
  below := by
    intro x hx
    rcases List.mem_cons.1 hx with rfl | hx
    · rw [hy]; exact Nat.lt_succ_self _
    · exact Nat.lt_succ_of_lt (h.below x hx)
  sentBelow := fun s hs => Nat.lt_succ_of_lt (h.sentBelow s hs)
  entry := by
    intro x hx hid
    rcases List.mem_cons.1 hx with rfl | hx
    · have := h.fresh; omega
    · exact h.entry x hx hid
  once := by
    have : ¬ y.id = x0.id := by have := h.fresh; omega
    simp only [List.filter_cons, beq_iff_eq, this, if_false]
    exact h.once
  bound := h.bound
  sends := h.sends

theorem IxtInv.execute {x0 : Ixt} {now : TimeVal} {w : IxtWorld} (h : IxtInv x0 now w)
    {c : TimeVal} (hc : c.Normal) : IxtInv x0 now (retransmissions_execute w c) := by
  rw [execute_eq]
  have hsent := filter_sends w.list c x0.id
  have hlist := filter_step w.list c x0.id
  have hbelow : ∀ y ∈ w.list.filterMap (ixtStep c), y.id < w.next := by
    intro y hy
    obtain ⟨x, hx, he⟩ := List.mem_filterMap.1 hy
    rw [step_id he]; exact h.below x hx
  have hsb : ∀ s ∈ w.sent ++ w.list.flatMap (fun x => (ixt_retransmit x c).2), s.id < w.next := by
    intro s hs
    rcases List.mem_append.1 hs with hs | hs
    · exact h.sentBelow s hs
    · obtain ⟨x, hx, he⟩ := List.mem_flatMap.1 hs
      rw [retransmit_send_id he]; exact h.below x hx
  have hcase : w.list.filter (·.id == x0.id) = [] ∨
      ∃ x, w.list.filter (·.id == x0.id) = [x] := by
    have := h.once
    match hq : w.list.filter (·.id == x0.id) with
    | [] => exact Or.inl hq
    | [x] => exact Or.inr ⟨x, hq⟩
    | a :: b :: r => rw [hq] at this; simp at this
  rcases hcase with hnil | ⟨x, hx⟩
  · rw [hnil] at hsent hlist
    have hf : (w.sent ++ w.list.flatMap (fun x => (ixt_retransmit x c).2)).filter (·.id == x0.id)
        = w.sent.filter (·.id == x0.id) := by
      rw [List.filter_append, hsent]; simp
    refine ⟨h.fresh, hbelow, hsb, ?_, ?_, ?_, ?_⟩
    · intro y hy hid
      have : y ∈ (w.list.filterMap (ixtStep c)).filter (·.id == x0.id) :=
        List.mem_filter.2 ⟨hy, by simp [hid]⟩
      rw [hlist] at this; simp at this
    · dsimp only; rw [hlist]; simp
    · dsimp only; rw [hf]; exact h.bound
    · dsimp only; rw [hf]; exact h.sends
  · have hxm : x ∈ w.list ∧ x.id = x0.id := by
      have : x ∈ w.list.filter (·.id == x0.id) := by rw [hx]; simp
      simpa using this
    obtain ⟨n, hn, hlen, e1, e2, e3, e4, e5, e6, e7, e8, e9, e10⟩ := h.entry x hxm.1 hxm.2
    rw [hx] at hsent hlist
    have hf : (w.sent ++ w.list.flatMap (fun x => (ixt_retransmit x c).2)).filter (·.id == x0.id)
        = w.sent.filter (·.id == x0.id) ++ (ixt_retransmit x c).2 := by
      rw [List.filter_append, hsent]; simp
    by_cases hdue : timerGt c x.start = true
    · have hg := ixtGap_range (n + 1)
      have hadd := c27_add_exact_partial (t := x.start) (ms := ixtGap (n + 1)) e3 hg.1 hg.2
      have hr1 : (ixt_retransmit x c).1 =
          { x with interval := ixtGap (n + 1), start := add_gettimeofday x.start (ixtGap (n + 1))
                   counter := x.counter - 1 } := by
        unfold ixt_retransmit
        rw [if_pos hdue]
        simp only [e2, ixtGap_double]
      have hgt := (timerGt_iff hc e3).1 hdue
      have hs2 : (∃ m, (ixt_retransmit x c).2 = [⟨x0.id, c, m, x0.dest, x0.port, x0.sock⟩] ∧
            (x0.ack = some m ∨ (x0.ack = none ∧ x0.msg2xx = some m))) ∨
          ((ixt_retransmit x c).2 = [] ∧ x0.ack = none ∧ x0.msg2xx = none) := by
        unfold ixt_retransmit
        rw [if_pos hdue]
        simp only [hxm.2, e5, e6, e7, e8, e9]
        cases ha : x0.ack with
        | some a => left; exact ⟨a, rfl, Or.inl rfl⟩
        | none =>
          cases hm : x0.msg2xx with
          | some m => left; exact ⟨m, rfl, Or.inr ⟨rfl, rfl⟩⟩
          | none => right; exact ⟨rfl, rfl, rfl⟩
      refine ⟨h.fresh, hbelow, hsb, ?_, ?_, ?_, ?_⟩
      · intro y hy hid
        have hy' : y ∈ (w.list.filterMap (ixtStep c)).filter (·.id == x0.id) :=
          List.mem_filter.2 ⟨hy, by simp [hid]⟩
        rw [hlist] at hy'
        simp only [List.mem_filterMap, List.mem_singleton, exists_eq_left, ixtStep] at hy'
        split at hy'
        · simp at hy'
        · rename_i hcnt
          simp only [Option.some.injEq] at hy'
          rw [hr1] at hy' hcnt
          dsimp only at hcnt
          subst hy'
          refine ⟨n + 1, by omega, ?_, ?_, rfl, hadd.2, ?_, e5, e6, e7, e8, e9, e10⟩
          · intro hsome
            dsimp only
            rw [hf, List.length_append, hlen hsome]
            rcases hs2 with ⟨m, hm, _⟩ | ⟨_, ha, hm⟩
            · rw [hm]; rfl
            · simp [ha, hm] at hsome
          · dsimp only; omega
          · dsimp only; rw [hadd.1, e4, ixtOffset]; omega
      · dsimp only; rw [hlist]; simp only [List.filterMap_cons, List.filterMap_nil]; split <;> simp
      · dsimp only
        rw [hf, List.length_append]
        rcases hs2 with ⟨m, hm, ha⟩ | ⟨hm, _, _⟩
        · have := hlen (by rcases ha with ha | ⟨_, ha⟩ <;> simp [ha])
          rw [hm, this]; simp; omega
        · rw [hm]; simpa using h.bound
      · intro k s hk
        dsimp only at hk
        rw [hf] at hk
        rcases hs2 with ⟨m, hm, ha⟩ | ⟨hm, _, _⟩
        · have hl := hlen (by rcases ha with ha | ⟨_, ha⟩ <;> simp [ha])
          rw [hm, List.getElem?_append] at hk
          split at hk
          · exact h.sends k s hk
          · rw [hl] at hk
            rename_i hge
            rw [hl] at hge
            have hkn : k - n = 0 := by
              cases hq : k - n with
              | zero => rfl
              | succ j => rw [hq] at hk; simp at hk
            rw [hkn] at hk
            simp only [List.getElem?_cons_zero, Option.some.injEq] at hk
            have : k = n := by omega
            subst this
            subst hk
            exact ⟨by dsimp only; omega, ha, rfl, rfl, rfl⟩
        · rw [hm, List.append_nil] at hk; exact h.sends k s hk
    · have hr : ixt_retransmit x c = (x, []) := by unfold ixt_retransmit; rw [if_neg hdue]
      have hst : ixtStep c x = some x := by
        unfold ixtStep; rw [hr]; rw [if_neg]; dsimp only; omega
      rw [hr] at hf
      simp only [List.append_nil] at hf
      refine ⟨h.fresh, hbelow, hsb, ?_, ?_, ?_, ?_⟩
      · intro y hy hid
        have hy' : y ∈ (w.list.filterMap (ixtStep c)).filter (·.id == x0.id) :=
          List.mem_filter.2 ⟨hy, by simp [hid]⟩
        rw [hlist] at hy'
        simp [hst] at hy'
        subst hy'
        dsimp only
        rw [hf]
        exact h.entry y hxm.1 hxm.2
      · dsimp only; rw [hlist]; simp [hst]
      · dsimp only; rw [hf]; exact h.bound
      · dsimp only; rw [hf]; exact h.sends

theorem IxtInv.apply {x0 : Ixt} {now : TimeVal} {w w' : IxtWorld} (h : IxtInv x0 now w)
    {op : IxtOp} (hc : op.NormalClock) (hw : op.apply w = some w') : IxtInv x0 now w' := by
  cases op with
  | start200 t d m c s =>
    simp only [IxtOp.apply, Option.some.injEq] at hw
    subst hw; exact h.add _ rfl
  | startAck t d c dest p s =>
    simp only [IxtOp.apply, Option.some.injEq] at hw
    subst hw; exact h.add _ rfl
  | stop200 heap a =>
    simp only [IxtOp.apply, Option.map_eq_some_iff] at hw
    obtain ⟨⟨d, w2⟩, h1, rfl⟩ := hw
    have hnext : w2.next = w.next := by
      unfold stop_200ok at h1
      split at h1
      · simp at h1; rw [← h1.2]
      · split at h1
        · simp at h1
        · simp at h1; rw [← h1.2]
    obtain ⟨h2, h3⟩ := c30_ack_partial h1
    refine h.sublist ?_ h2 hnext
    rcases h3 with ⟨_, h3, _⟩ | ⟨b, x, c, h3, _, _, _, h4⟩
    · rw [h3]; exact List.Sublist.refl _
    · rw [h3, h4]; exact (List.Sublist.refl b).append (List.sublist_cons_self x c)
  | stopDialog d =>
    simp only [IxtOp.apply, Option.some.injEq] at hw
    subst hw
    exact h.sublist (c30_dialog w d).2.1 rfl rfl
  | execute c =>
    simp only [IxtOp.apply, Option.some.injEq] at hw
    subst hw
    exact h.execute hc

theorem IxtInv.run {x0 : Ixt} {now : TimeVal} {w w' : IxtWorld} (h : IxtInv x0 now w)
    {ops : List IxtOp} (hc : ∀ op ∈ ops, op.NormalClock) (hw : w.run ops = some w') :
    IxtInv x0 now w' := by
  induction ops generalizing w with
  | nil => simp only [IxtWorld.run, Option.some.injEq] at hw; subst hw; exact h
  | cons op ops ih =>
    simp only [IxtWorld.run, Option.bind_eq_some_iff] at hw
    obtain ⟨w1, h1, h2⟩ := hw
    exact ih (h.apply (hc op (by simp)) h1) (fun o ho => hc o (by simp [ho])) h2

/-- Identifiers are below `next`. -/
def IxtFresh (w : IxtWorld) : Prop := (∀ x ∈ w.list, x.id < w.next) ∧ ∀ s ∈ w.sent, s.id < w.next

theorem ixtFresh_apply {w w' : IxtWorld} (h : IxtFresh w) {op : IxtOp} (hw : op.apply w = some w') :
    IxtFresh w' := by
  cases op with
  | start200 t d m c s =>
    simp only [IxtOp.apply, Option.some.injEq] at hw
    subst hw
    refine ⟨?_, fun s hs => Nat.lt_succ_of_lt (h.2 s hs)⟩
    intro x hx
    rcases List.mem_cons.1 hx with rfl | hx
    · exact Nat.lt_succ_self _
    · exact Nat.lt_succ_of_lt (h.1 x hx)
  | startAck t d c dest p s =>
    simp only [IxtOp.apply, Option.some.injEq] at hw
    subst hw
    refine ⟨?_, fun s hs => Nat.lt_succ_of_lt (h.2 s hs)⟩
    intro x hx
    rcases List.mem_cons.1 hx with rfl | hx
    · exact Nat.lt_succ_self _
    · exact Nat.lt_succ_of_lt (h.1 x hx)
  | stop200 heap a =>
    simp only [IxtOp.apply, Option.map_eq_some_iff] at hw
    obtain ⟨⟨d, w2⟩, h1, rfl⟩ := hw
    have hnext : w2.next = w.next := by
      unfold stop_200ok at h1
      split at h1
      · simp at h1; rw [← h1.2]
      · split at h1
        · simp at h1
        · simp at h1; rw [← h1.2]
    obtain ⟨h2, h3⟩ := c30_ack_partial h1
    refine ⟨?_, by dsimp only; rw [h2, hnext]; exact h.2⟩
    dsimp only; rw [hnext]
    rcases h3 with ⟨_, h3, _⟩ | ⟨b, x, c, h3, _, _, _, h4⟩
    · rw [h3]; exact h.1
    · rw [h4]; intro y hy
      apply h.1 y; rw [h3]; simp at hy ⊢
      rcases hy with hy | hy <;> simp [hy]
  | stopDialog d =>
    simp only [IxtOp.apply, Option.some.injEq] at hw
    subst hw
    exact ⟨fun x hx => h.1 x ((c30_dialog w d).2.1.subset hx), h.2⟩
  | execute c =>
    simp only [IxtOp.apply, Option.some.injEq] at hw
    subst hw
    rw [execute_eq]
    constructor
    · intro y hy
      obtain ⟨x, hx, he⟩ := List.mem_filterMap.1 hy
      rw [step_id he]; exact h.1 x hx
    · intro s hs
      rcases List.mem_append.1 hs with hs | hs
      · exact h.2 s hs
      · obtain ⟨x, hx, he⟩ := List.mem_flatMap.1 hs
        rw [retransmit_send_id he]; exact h.1 x hx

theorem ixtFresh_run {w w' : IxtWorld} (h : IxtFresh w) {ops : List IxtOp}
    (hw : w.run ops = some w') : IxtFresh w' := by
  induction ops generalizing w with
  | nil => simp only [IxtWorld.run, Option.some.injEq] at hw; subst hw; exact h
  | cons op ops ih =>
    simp only [IxtWorld.run, Option.bind_eq_some_iff] at hw
    obtain ⟨w1, h1, h2⟩ := hw
    exact ih (ixtFresh_apply h h1) h2

theorem ixtInv_start {w : IxtWorld} (h : IxtFresh w) {now : TimeVal} (hn : now.Normal) {y : Ixt}
    (hy : y.id = w.next) (h1 : y.interval = DEFAULT_T1)
    (h2 : y.start = add_gettimeofday now (DEFAULT_T1 + 10)) (h3 : y.counter = 10) :
    IxtInv y now { w with list := y :: w.list, next := w.next + 1 } := by
  have hempty : w.sent.filter (·.id == y.id) = [] := by
    rw [List.filter_eq_nil_iff]
    intro s hs
    have := h.2 s hs
    simp only [beq_iff_eq]; omega
  have hnone : w.list.filter (·.id == y.id) = [] := by
    rw [List.filter_eq_nil_iff]
    intro x hx
    have := h.1 x hx
    simp only [beq_iff_eq]; omega
  have hadd := c27_add_exact_partial (t := now) (ms := DEFAULT_T1 + 10) hn (by decide) (by decide)
  refine ⟨by dsimp only; omega, ?_, fun s hs => Nat.lt_succ_of_lt (h.2 s hs), ?_, ?_, ?_, ?_⟩
  · intro x hx
    rcases List.mem_cons.1 hx with rfl | hx
    · dsimp only; omega
    · exact Nat.lt_succ_of_lt (h.1 x hx)
  · intro x hx hid
    rcases List.mem_cons.1 hx with rfl | hx
    · refine ⟨0, by omega, by simp [hempty], by simp [h3], by rw [h1]; decide, ?_, ?_,
        rfl, rfl, rfl, rfl, rfl, rfl⟩
      · rw [h2]; exact hadd.2
      · rw [h2, hadd.1]; simp [DEFAULT_T1, ixtOffset]
    · have := h.1 x hx; omega
  · simp [List.filter_cons, hnone]
  · dsimp only; rw [hempty]; simp
  · intro k s hk; dsimp only at hk; rw [hempty] at hk; simp at hk

theorem run_append_ixt {w w' : IxtWorld} {a b : List IxtOp} :
    w.run (a ++ b) = some w' ↔ ∃ w1, w.run a = some w1 ∧ w1.run b = some w' := by
  induction a generalizing w with
  | nil => simp [IxtWorld.run]
  | cons op ops ih =>
    simp only [List.cons_append, IxtWorld.run, Option.bind_eq_some_iff, ih]
    constructor
    · rintro ⟨w1, h1, w2, h2, h3⟩; exact ⟨w2, ⟨w1, h1, h2⟩, h3⟩
    · rintro ⟨w2, ⟨w1, h1, h2⟩, h3⟩; exact ⟨w1, h1, w2, h2, h3⟩

/-- In every history, a 2xx kept from time `now` on is retransmitted at most ten times, always
itself and always to the destination of the response; the retransmission number `k` (from 0)
happens after `now + 510 ms + 1 s + 2 s + 4 s + 4 s + …` (`k` gaps after the first). -/
theorem c30_schedule {pre post : List IxtOp} {w1 w2 : IxtWorld} {now : TimeVal} {d : Option Nat}
    {msg : Msg} {cloned : Option Msg} {sock : Int}
    (h1 : IxtWorld.run {} pre = some w1)
    (h2 : IxtWorld.run {} (pre ++ .start200 now d msg cloned sock :: post) = some w2)
    (hn : now.Normal) (hc : ∀ op ∈ post, op.NormalClock) :
    (w2.sent.filter (·.id == w1.next)).length ≤ 10 ∧
    ∀ k s, (w2.sent.filter (·.id == w1.next))[k]? = some s →
      now.micros + 1000 * ixtOffset k < s.time.micros ∧ cloned = some s.msg ∧
      (s.dest, s.port) = osip_response_get_destination msg ∧ s.sock = sock := by
  obtain ⟨w1', e1, e2⟩ := run_append_ixt.1 h2
  rw [h1] at e1
  simp only [Option.some.injEq] at e1
  subst e1
  simp only [IxtWorld.run, IxtOp.apply, Option.bind_some] at e2
  have hf : IxtFresh w1 := ixtFresh_run ⟨by simp, by simp⟩ h1
  have hinv := (ixtInv_start hf hn (y := { ixt_init w1.next now with dialog := d, msg2xx := cloned, sock := sock, dest := (osip_response_get_destination msg).1, port := (osip_response_get_destination msg).2 })
    rfl rfl rfl rfl).run hc e2
  refine ⟨hinv.bound, ?_⟩
  intro k s hk
  obtain ⟨a1, a2, a3, a4, a5⟩ := hinv.sends k s hk
  refine ⟨a1, ?_, by rw [a3, a4], a5⟩
  rcases a2 with a2 | a2
  · simp [ixt_init] at a2
  · exact a2.2

/-- The same for an ACK kept by the caller. -/
theorem c30_schedule_ack {pre post : List IxtOp} {w1 w2 : IxtWorld} {now : TimeVal} {d : Option Nat}
    {cloned : Option Msg} {dest : Option Str} {port sock : Int}
    (h1 : IxtWorld.run {} pre = some w1)
    (h2 : IxtWorld.run {} (pre ++ .startAck now d cloned dest port sock :: post) = some w2)
    (hn : now.Normal) (hc : ∀ op ∈ post, op.NormalClock) :
    (w2.sent.filter (·.id == w1.next)).length ≤ 10 ∧
    ∀ k s, (w2.sent.filter (·.id == w1.next))[k]? = some s →
      now.micros + 1000 * ixtOffset k < s.time.micros ∧ cloned = some s.msg ∧
      s.dest = dest ∧ s.port = port ∧ s.sock = sock := by
  obtain ⟨w1', e1, e2⟩ := run_append_ixt.1 h2
  rw [h1] at e1
  simp only [Option.some.injEq] at e1
  subst e1
  simp only [IxtWorld.run, IxtOp.apply, Option.bind_some] at e2
  have hf : IxtFresh w1 := ixtFresh_run ⟨by simp, by simp⟩ h1
  have hinv := (ixtInv_start hf hn (y := { ixt_init w1.next now with dialog := d, ack := cloned, dest := dest, port := port, sock := sock })
    rfl rfl rfl rfl).run hc e2
  refine ⟨hinv.bound, ?_⟩
  intro k s hk
  obtain ⟨a1, a2, a3, a4, a5⟩ := hinv.sends k s hk
  refine ⟨a1, ?_, a3, a4, a5⟩
  rcases a2 with a2 | a2
  · exact a2
  · simp [ixt_init] at a2

/-- Nothing is forgotten: an execution sends every message whose deadline has passed, once, and
no other, and it drops an entry only when its counter, ten at the start, reaches zero. -/
theorem c30_execute (w : IxtWorld) {current : TimeVal} (hc : current.Normal) :
    (∃ new, (retransmissions_execute w current).sent = w.sent ++ new ∧
      (∀ s ∈ new, s.time = current ∧ ∃ x ∈ w.list, x.id = s.id ∧ timerGt current x.start = true)) ∧
    (∀ x ∈ w.list, x.start.Normal →
      (x.start.micros < current.micros → x.counter ≠ 1 →
        ∃ y ∈ (retransmissions_execute w current).list, y.id = x.id ∧ y.counter = x.counter - 1) ∧
      (x.start.micros < current.micros → ∀ m, x.ack = some m ∨ (x.ack = none ∧ x.msg2xx = some m) →
        ⟨x.id, current, m, x.dest, x.port, x.sock⟩ ∈ (retransmissions_execute w current).sent) ∧
      (current.micros ≤ x.start.micros → x.counter ≠ 0 →
        x ∈ (retransmissions_execute w current).list)) := by
  rw [execute_eq]
  refine ⟨⟨_, rfl, ?_⟩, ?_⟩
  · intro s hs
    obtain ⟨x, hx, he⟩ := List.mem_flatMap.1 hs
    have hid := retransmit_send_id he
    unfold ixt_retransmit at he
    split at he
    · rename_i ht
      refine ⟨?_, x, hx, hid.symm, ht⟩
      dsimp only at he
      split at he
      · simp at he; simp [he]
      · split at he
        · simp at he; simp [he]
        · simp at he
    · simp at he
  · intro x hx hn
    refine ⟨?_, ?_, ?_⟩
    · intro hlt hcnt
      have ht := (timerGt_iff hc hn).2 hlt
      refine ⟨(ixt_retransmit x current).1, ?_, retransmit_id _ _, ?_⟩
      · refine List.mem_filterMap.2 ⟨x, hx, ?_⟩
        unfold ixtStep; rw [if_neg]
        unfold ixt_retransmit; rw [if_pos ht]; dsimp only; omega
      · unfold ixt_retransmit; rw [if_pos ht]
    · intro hlt m hm
      have ht := (timerGt_iff hc hn).2 hlt
      refine List.mem_append.2 (Or.inr (List.mem_flatMap.2 ⟨x, hx, ?_⟩))
      unfold ixt_retransmit; rw [if_pos ht]; dsimp only
      rcases hm with hm | ⟨h1, hm⟩
      · simp [hm]
      · simp [h1, hm]
    · intro hle hcnt
      have ht : ¬ timerGt current x.start = true := by
        rw [timerGt_iff hc hn]; omega
      refine List.mem_filterMap.2 ⟨x, hx, ?_⟩
      have hr : ixt_retransmit x current = (x, []) := by unfold ixt_retransmit; rw [if_neg ht]
      unfold ixtStep; rw [hr, if_neg hcnt]

end Osip
