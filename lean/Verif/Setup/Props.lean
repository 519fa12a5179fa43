import Verif.Setup.Model
import Verif.Fsm.Safe

/-!
# C59: a failing set-up of a transaction frees everything exactly once
-/

set_option autoImplicit false

namespace Osip.Setup

/-! ## Ownership -/

/-- How often a block is owned. -/
abbrev Own := Nat → Nat

def ownPtr (p : Option Nat) : Own := fun b => if p = some b then 1 else 0

def ownParam (p : PParam) : Own := fun b => ownPtr p.gname b + ownPtr p.gvalue b + ownPtr (some p.self) b

def ownList : PList → Own
  | [] => fun _ => 0
  | (n, p) :: ps => fun b => ownPtr (some n) b + ownParam p b + ownList ps b

def ownUri (u : PUri) : Own := fun b =>
  ownPtr u.scheme b + ownPtr u.username b + ownPtr u.password b + ownPtr u.host b + ownPtr u.port b + ownPtr u.string b +
    ownList u.url_params b + ownList u.url_headers b + ownPtr (some u.self) b

/-- Nothing is owned by NULL. -/
def ownOpt {α : Type} (own : α → Own) : Option α → Own
  | none => fun _ => 0
  | some x => own x

def ownFrom (f : PFrom) : Own := fun b =>
  ownPtr f.displayname b + ownOpt ownUri f.url b + ownList f.gen_params b + ownPtr (some f.self) b

def ownVia (v : PVia) : Own := fun b =>
  ownPtr v.version b + ownPtr v.protocol b + ownPtr v.host b + ownPtr v.port b + ownPtr v.comment b + ownList v.via_params b +
    ownPtr (some v.self) b

def ownPair (p : PPair) : Own := fun b => ownPtr p.fst b + ownPtr p.snd b + ownPtr (some p.self) b

def ownFifo (f : PFifo) : Own := fun b => ownPtr f.qislocked b + ownPtr f.qisempty b + ownPtr (some f.self) b

def ownCtx (c : PCtx) : Own := fun b => ownPtr c.destination b + ownPtr (some c.self) b

def ownTrans (t : PTrans) : Own := fun b =>
  ownOpt ownVia t.topvia b + ownOpt ownFrom t.frm b + ownOpt ownFrom t.to b + ownOpt ownPair t.callid b + ownOpt ownPair t.cseq b +
    ownOpt ownFifo t.transactionff b + ownOpt ownCtx t.ctx b + ownPtr (some t.self) b

/-- `f` runs without undefined behaviour if the blocks of `pre` are allocated; afterwards those of `post` are, and all others are as
before. -/
def Tri {α : Type} (pre : Own) (f : M α) (Q : α → Prop) (post : α → Own) : Prop :=
  ∀ (m : Mem) (fr : Own), (∀ b, m.live.count b = pre b + fr b) →
    ∃ r m', f m = some (r, m') ∧ Q r ∧ ∀ b, m'.live.count b = post r b + fr b

theorem Tri.ret {α : Type} {pre : Own} {Q : α → Prop} {post : α → Own} (x : α) (hQ : Q x) (h : ∀ b, pre b = post x b) :
    Tri pre (pure x : M α) Q post := fun m fr hm => ⟨x, m, rfl, hQ, fun b => by rw [hm, h]⟩

theorem Tri.bind {α β : Type} {pre : Own} {f : M α} {Q : α → Prop} {mid : α → Own} {g : α → M β} {R : β → Prop} {post : β → Own}
    (hf : Tri pre f Q mid) (hg : ∀ x, Q x → Tri (mid x) (g x) R post) : Tri pre (f >>= g) R post := by
  intro m fr hm
  obtain ⟨x, m1, e1, q1, c1⟩ := hf m fr hm
  obtain ⟨y, m2, e2, q2, c2⟩ := hg x q1 m1 fr c1
  refine ⟨y, m2, ?_, q2, c2⟩
  show (f m).bind (fun p => g p.1 p.2) = _
  rw [e1]; exact e2

/-- Other blocks stay allocated. -/
theorem Tri.frame {α : Type} {pre : Own} {f : M α} {Q : α → Prop} {post : α → Own} (h : Tri pre f Q post) (F : Own) {pre' : Own}
    {post' : α → Own} (h1 : ∀ b, pre' b = pre b + F b) (h2 : ∀ r, Q r → ∀ b, post' r b = post r b + F b) : Tri pre' f Q post' := by
  intro m fr hm
  obtain ⟨r, m', e, q, c⟩ := h m (fun b => F b + fr b) (fun b => by rw [hm, h1]; omega)
  exact ⟨r, m', e, q, fun b => by rw [c, h2 r q]; omega⟩

theorem Tri.weaken {α : Type} {pre : Own} {f : M α} {Q Q' : α → Prop} {post : α → Own} (h : Tri pre f Q post) (hq : ∀ x, Q x → Q' x) :
    Tri pre f Q' post := fun m fr hm => by
  obtain ⟨r, m', e, q, c⟩ := h m fr hm
  exact ⟨r, m', e, hq r q, c⟩

theorem Tri.pre_eq {α : Type} {pre pre' : Own} {f : M α} {Q : α → Prop} {post : α → Own} (h : Tri pre f Q post)
    (e : ∀ b, pre' b = pre b) : Tri pre' f Q post := by
  have : pre' = pre := funext e
  rwa [this]

/-- `f` first, the rest is kept; then `g`. -/
theorem Tri.seq {α β : Type} {pre0 pre F : Own} {f : M α} {Q : α → Prop} {mid : α → Own} {g : α → M β} {R : β → Prop}
    {post : β → Own} (hf : Tri pre0 f Q mid) (hp : ∀ b, pre b = pre0 b + F b)
    (hg : ∀ x, Q x → Tri (fun b => mid x b + F b) (g x) R post) : Tri pre (f >>= g) R post :=
  (hf.frame F hp (post' := fun x b => mid x b + F b) fun _ _ _ => rfl).bind hg

/-! ## The functions -/

theorem malloc_tri (ok : Oracle) (t : Tag) : Tri (fun _ => 0) (malloc ok t) (fun p => (∀ n, ok t n = true) → p ≠ none) ownPtr := by
  intro m fr hm
  unfold malloc
  cases h : ok t m.count with
  | false =>
    refine ⟨none, _, by simp; rfl, fun h' => by rw [h'] at h; simp at h, fun b => ?_⟩
    simpa [ownPtr] using hm b
  | true =>
    refine ⟨some m.count, _, by simp; rfl, by simp, fun b => ?_⟩
    rw [List.count_cons, hm b]
    simp only [ownPtr, Option.some.injEq, beq_iff_eq]
    omega

theorem free_tri (p : Option Nat) : Tri (ownPtr p) (free p) (fun _ => True) (fun _ _ => 0) := by
  intro m fr hm
  unfold free
  cases p with
  | none => exact ⟨(), m, rfl, trivial, fun b => by simpa [ownPtr] using hm b⟩
  | some a =>
    have ha := hm a
    simp only [ownPtr, if_true] at ha
    have : a ∈ m.live := List.count_pos_iff.1 (by omega)
    refine ⟨(), _, by simp [this]; rfl, trivial, fun b => ?_⟩
    have hb := hm b
    simp only [ownPtr, Option.some.injEq] at hb
    rw [List.count_erase]
    simp only [beq_iff_eq]
    split <;> rename_i e
    · subst e; simp at hb; omega
    · have : a ≠ b := e
      simp [this] at hb; omega

theorem strdup_tri (ok : Oracle) (s : Option Str) : Tri (fun _ => 0) (strdup ok s) (fun _ => True) ownPtr := by
  unfold strdup
  cases s with
  | none => exact Tri.ret _ trivial fun b => by simp [ownPtr]
  | some s => exact (malloc_tri ok .string).weaken fun _ _ => trivial

/-- What a function returns which copies something: there is a copy exactly if the code is 0. -/
def Copied {α : Type} (r : Int × Option α) : Prop := r.1 = 0 ↔ r.2 ≠ none

theorem param_clone_tri (ok : Oracle) (p : Param) :
    Tri (fun _ => 0) (param_clone ok p) Copied (fun r => ownOpt ownParam r.2) := by
  unfold param_clone
  refine (malloc_tri ok .struct).bind fun q _ => ?_
  cases q with
  | none => exact Tri.ret _ (by simp [Copied, OSIP_NOMEM]) fun b => by simp [ownPtr, ownOpt]
  | some a =>
    refine (strdup_tri ok _).seq (F := ownPtr (some a)) (fun b => by simp) fun n _ => ?_
    refine (strdup_tri ok _).seq (F := fun b => ownPtr n b + ownPtr (some a) b) (fun b => by simp) fun v _ => ?_
    exact Tri.ret _ (by simp [Copied, OSIP_SUCCESS]) fun b => by simp only [ownOpt, ownParam]; omega

theorem param_free_tri (p : PParam) : Tri (ownParam p) (param_free p) (fun _ => True) (fun _ _ => 0) := by
  unfold param_free
  refine (free_tri p.gname).seq (F := fun b => ownPtr p.gvalue b + ownPtr (some p.self) b) (fun b => by simp only [ownParam]; omega) fun _ _ => ?_
  refine (free_tri p.gvalue).seq (F := ownPtr (some p.self)) (fun b => by omega) fun _ _ => ?_
  exact (free_tri _).pre_eq fun b => by simp

theorem ownList_append : ∀ (xs ys : PList) (b : Nat), ownList (xs ++ ys) b = ownList xs b + ownList ys b
  | [], ys, b => by simp [ownList]
  | (n, p) :: xs, ys, b => by simp only [List.cons_append, ownList, ownList_append xs ys b]; omega

theorem list_clone_tri {ok : Oracle} (hn : ∀ n, ok .node n = true) : ∀ (ps : List Param) (dst : PList),
    Tri (ownList dst) (list_clone ok ps dst) (fun _ => True) (fun r => ownList r.2)
  | [], dst => by
    unfold list_clone
    exact Tri.ret _ trivial fun b => rfl
  | p :: ps, dst => by
    unfold list_clone
    refine (param_clone_tri ok p).seq (F := ownList dst) (fun b => by simp) fun r hr => ?_
    obtain ⟨i, q⟩ := r
    cases q with
    | none => exact Tri.ret _ trivial fun b => by simp [ownOpt]
    | some q =>
      refine (malloc_tri ok .node).seq (F := fun b => ownParam q b + ownList dst b) (fun b => by simp [ownOpt]) fun n h => ?_
      cases n with
      | none => exact absurd rfl (h hn)
      | some n =>
        refine (list_clone_tri hn ps (dst ++ [(n, q)])).pre_eq fun b => ?_
        simp only [ownList_append, ownList]; omega

theorem list_free_tri : ∀ (ps : PList), Tri (ownList ps) (list_free ps) (fun _ => True) (fun _ _ => 0)
  | [] => by
    unfold list_free
    exact Tri.ret _ trivial fun b => rfl
  | (n, p) :: ps => by
    unfold list_free
    refine (free_tri (some n)).seq (F := fun b => ownParam p b + ownList ps b) (fun b => by simp only [ownList]; omega) fun _ _ => ?_
    refine (param_free_tri p).seq (F := ownList ps) (fun b => by simp) fun _ _ => ?_
    exact (list_free_tri ps).pre_eq fun b => by simp

theorem uri_free_tri (u : PUri) : Tri (ownUri u) (uri_free u) (fun _ => True) (fun _ _ => 0) := by
  obtain ⟨a, s1, s2, s3, s4, s5, s6, ps, hs⟩ := u
  unfold uri_free
  refine (free_tri s1).seq (F := fun b => ownPtr s2 b + ownPtr s3 b + ownPtr s4 b + ownPtr s5 b + ownPtr s6 b + ownList ps b + ownList hs b +
    ownPtr (some a) b) (fun b => by simp only [ownUri]; omega) fun _ _ => ?_
  refine (free_tri s2).seq (F := fun b => ownPtr s3 b + ownPtr s4 b + ownPtr s5 b + ownPtr s6 b + ownList ps b + ownList hs b +
    ownPtr (some a) b) (fun b => by omega) fun _ _ => ?_
  refine (free_tri s3).seq (F := fun b => ownPtr s4 b + ownPtr s5 b + ownPtr s6 b + ownList ps b + ownList hs b +
    ownPtr (some a) b) (fun b => by omega) fun _ _ => ?_
  refine (free_tri s4).seq (F := fun b => ownPtr s5 b + ownPtr s6 b + ownList ps b + ownList hs b +
    ownPtr (some a) b) (fun b => by omega) fun _ _ => ?_
  refine (free_tri s5).seq (F := fun b => ownPtr s6 b + ownList ps b + ownList hs b + ownPtr (some a) b) (fun b => by omega) fun _ _ => ?_
  refine (list_free_tri ps).seq (F := fun b => ownPtr s6 b + ownList hs b + ownPtr (some a) b) (fun b => by omega) fun _ _ => ?_
  refine (list_free_tri hs).seq (F := fun b => ownPtr s6 b + ownPtr (some a) b) (fun b => by omega) fun _ _ => ?_
  refine (free_tri s6).seq (F := ownPtr (some a)) (fun b => by omega) fun _ _ => ?_
  exact (free_tri _).pre_eq fun b => by simp

/-- Everything is freed, then an error is returned. -/
theorem Tri.fail {β : Type} {pre : Own} {f : M Unit} {own : β → Own} (hf : Tri pre f (fun _ => True) (fun _ _ => 0)) {i : Int}
    (hi : i ≠ 0) {pre' : Own} (e : ∀ b, pre' b = pre b) :
    Tri pre' (do f; return (i, (none : Option β))) Copied (fun r => ownOpt own r.2) :=
  (hf.pre_eq e).bind fun _ _ => Tri.ret _ (by simp [Copied, hi]) fun b => rfl

theorem uri_clone_tri {ok : Oracle} (hn : ∀ n, ok .node n = true) (u : Uri) :
    Tri (fun _ => 0) (uri_clone ok u) Copied (fun r => ownOpt ownUri r.2) := by
  unfold uri_clone
  split
  · exact Tri.ret _ (by simp [Copied, OSIP_BADPARAMETER]) fun b => rfl
  refine (malloc_tri ok .struct).bind fun q _ => ?_
  cases q with
  | none => exact Tri.ret _ (by simp [Copied, OSIP_NOMEM]) fun b => by simp [ownPtr, ownOpt]
  | some a =>
    refine (strdup_tri ok _).seq (F := ownPtr (some a)) (fun b => by simp) fun s1 _ => ?_
    refine (strdup_tri ok _).seq (F := fun b => ownPtr s1 b + ownPtr (some a) b) (fun b => by simp) fun s2 _ => ?_
    refine (strdup_tri ok _).seq (F := fun b => ownPtr s1 b + ownPtr s2 b + ownPtr (some a) b) (fun b => by omega) fun s3 _ => ?_
    refine (strdup_tri ok _).seq (F := fun b => ownPtr s1 b + ownPtr s2 b + ownPtr s3 b + ownPtr (some a) b) (fun b => by omega)
      fun s4 _ => ?_
    refine (strdup_tri ok _).seq (F := fun b => ownPtr s1 b + ownPtr s2 b + ownPtr s3 b + ownPtr s4 b + ownPtr (some a) b)
      (fun b => by omega) fun s5 _ => ?_
    refine (strdup_tri ok _).seq (F := fun b => ownPtr s1 b + ownPtr s2 b + ownPtr s3 b + ownPtr s4 b + ownPtr s5 b + ownPtr (some a) b)
      (fun b => by omega) fun s6 _ => ?_
    refine (list_clone_tri hn _ _).seq (F := fun b => ownPtr s1 b + ownPtr s2 b + ownPtr s3 b + ownPtr s4 b + ownPtr s5 b + ownPtr s6 b +
      ownPtr (some a) b) (fun b => by simp only [ownList]; omega) fun r _ => ?_
    obtain ⟨i, ps⟩ := r
    by_cases hi : i ≠ 0
    · simp only [if_pos hi]
      exact Tri.fail (uri_free_tri _) hi fun b => by simp only [ownUri, ownList]; omega
    simp only [if_neg hi]
    refine (list_clone_tri hn _ _).seq (F := fun b => ownPtr s1 b + ownPtr s2 b + ownPtr s3 b + ownPtr s4 b + ownPtr s5 b + ownPtr s6 b +
      ownList ps b + ownPtr (some a) b) (fun b => by simp only [ownList]; omega) fun r _ => ?_
    obtain ⟨i, hs⟩ := r
    by_cases hi : i ≠ 0
    · simp only [if_pos hi]
      exact Tri.fail (uri_free_tri _) hi fun b => by simp only [ownUri]; omega
    simp only [if_neg hi]
    exact Tri.ret _ (by simp [Copied, OSIP_SUCCESS]) fun b => by simp only [ownOpt, ownUri]; omega

theorem from_free_tri (f : Option PFrom) : Tri (ownOpt ownFrom f) (from_free f) (fun _ => True) (fun _ _ => 0) := by
  cases f with
  | none => exact Tri.ret _ trivial fun b => rfl
  | some f =>
    obtain ⟨a, d, u, ps⟩ := f
    unfold from_free
    have h : Tri (fun b => ownOpt ownUri u b + (ownPtr d b + ownList ps b + ownPtr (some a) b))
        (do free d; list_free ps; free (some a)) (fun _ => True) (fun _ b => ownOpt ownUri u b) := by
      refine (free_tri d).seq (F := fun b => ownOpt ownUri u b + ownList ps b + ownPtr (some a) b) (fun b => by omega) fun _ _ => ?_
      refine (list_free_tri ps).seq (F := fun b => ownOpt ownUri u b + ownPtr (some a) b) (fun b => by omega) fun _ _ => ?_
      exact (free_tri (some a)).frame (ownOpt ownUri u) (fun b => by omega) fun _ _ b => by simp
    cases u with
    | none => exact h.pre_eq fun b => by simp only [ownOpt, ownFrom]; omega
    | some u =>
      refine (uri_free_tri u).seq (F := fun b => ownPtr d b + ownList ps b + ownPtr (some a) b)
        (fun b => by simp only [ownOpt, ownFrom]; omega) fun _ _ => ?_
      refine (free_tri d).seq (F := fun b => ownList ps b + ownPtr (some a) b) (fun b => by omega) fun _ _ => ?_
      refine (list_free_tri ps).seq (F := fun b => ownPtr (some a) b) (fun b => by omega) fun _ _ => ?_
      exact (free_tri (some a)).pre_eq (fun b => by omega)

theorem from_clone_tri {ok : Oracle} (hn : ∀ n, ok .node n = true) (f : Option From) :
    Tri (fun _ => 0) (from_clone ok f) Copied (fun r => ownOpt ownFrom r.2) := by
  unfold from_clone
  cases f with
  | none => exact Tri.ret _ (by simp [Copied, OSIP_BADPARAMETER]) fun b => rfl
  | some f =>
  obtain ⟨fd, fu, fp⟩ := f
  refine (malloc_tri ok .struct).bind fun q _ => ?_
  cases q with
  | none => exact Tri.ret _ (by simp [Copied, OSIP_NOMEM]) fun b => by simp [ownPtr, ownOpt]
  | some a =>
    refine (strdup_tri ok _).seq (F := ownPtr (some a)) (fun b => by simp) fun d _ => ?_
    split
    · rename_i hd
      have : d = none := by
        unfold missing at hd
        cases d <;> simp_all
      subst this
      exact Tri.fail (from_free_tri _) (by decide) fun b => by simp [ownOpt, ownFrom, ownList, ownPtr]
    have hu : Tri (fun _ => 0) (url_clone ok fu) (fun r => r.1 ≠ 0 → r.2 = none) (fun r => ownOpt ownUri r.2) := by
      cases fu with
      | none => exact Tri.ret _ (by simp) fun b => rfl
      | some u => exact (uri_clone_tri hn u).weaken fun r hr h => Classical.byContradiction fun e => h (hr.2 e)
    refine hu.seq (F := fun b => ownPtr d b + ownPtr (some a) b) (fun b => by simp) fun r hr => ?_
    obtain ⟨i, u⟩ := r
    by_cases hi : i ≠ 0
    · have : u = none := hr hi
      subst this
      simp only [if_pos hi]
      exact Tri.fail (from_free_tri _) hi fun b => by simp only [ownOpt, ownFrom, ownList]; omega
    simp only [if_neg hi]
    refine (list_clone_tri hn _ _).seq (F := fun b => ownPtr d b + ownOpt ownUri u b + ownPtr (some a) b)
      (fun b => by simp only [ownList]; omega) fun r _ => ?_
    obtain ⟨i, ps⟩ := r
    by_cases hi : i ≠ 0
    · simp only [if_pos hi]
      exact Tri.fail (from_free_tri _) hi fun b => by simp only [ownOpt, ownFrom]; omega
    simp only [if_neg hi]
    exact Tri.ret _ (by simp [Copied, OSIP_SUCCESS]) fun b => by simp only [ownOpt, ownFrom]; omega

theorem via_free_tri (v : Option PVia) : Tri (ownOpt ownVia v) (via_free v) (fun _ => True) (fun _ _ => 0) := by
  cases v with
  | none => exact Tri.ret _ trivial fun b => rfl
  | some v =>
    obtain ⟨a, s1, s2, s3, s4, s5, ps⟩ := v
    unfold via_free
    refine (free_tri s1).seq (F := fun b => ownPtr s2 b + ownPtr s3 b + ownPtr s4 b + ownPtr s5 b + ownList ps b + ownPtr (some a) b)
      (fun b => by simp only [ownOpt, ownVia]; omega) fun _ _ => ?_
    refine (free_tri s2).seq (F := fun b => ownPtr s3 b + ownPtr s4 b + ownPtr s5 b + ownList ps b + ownPtr (some a) b)
      (fun b => by omega) fun _ _ => ?_
    refine (free_tri s3).seq (F := fun b => ownPtr s4 b + ownPtr s5 b + ownList ps b + ownPtr (some a) b) (fun b => by omega) fun _ _ => ?_
    refine (free_tri s4).seq (F := fun b => ownPtr s5 b + ownList ps b + ownPtr (some a) b) (fun b => by omega) fun _ _ => ?_
    refine (free_tri s5).seq (F := fun b => ownList ps b + ownPtr (some a) b) (fun b => by omega) fun _ _ => ?_
    refine (list_free_tri ps).seq (F := ownPtr (some a)) (fun b => by omega) fun _ _ => ?_
    exact (free_tri _).pre_eq fun b => by simp

theorem missing_none {s : Option Str} {p : Option Nat} (h : missing s p = true) : p = none := by
  unfold missing at h
  cases p <;> simp_all

theorem via_clone_tri {ok : Oracle} (hn : ∀ n, ok .node n = true) (v : Via) :
    Tri (fun _ => 0) (via_clone ok v) (fun r => Copied r ∧ (r.2 ≠ none → v.protocol ≠ none)) (fun r => ownOpt ownVia r.2) := by
  unfold via_clone
  split
  · exact Tri.ret _ (by simp [Copied, OSIP_BADPARAMETER]) fun b => rfl
  split
  · exact Tri.ret _ (by simp [Copied, OSIP_BADPARAMETER]) fun b => rfl
  rename_i hp
  have hp : v.protocol ≠ none := by simpa using hp
  split
  · exact Tri.ret _ (by simp [Copied, OSIP_BADPARAMETER]) fun b => rfl
  refine Tri.weaken (Q := Copied) ?_ fun r hr => ⟨hr, fun _ => hp⟩
  refine (malloc_tri ok .struct).bind fun q _ => ?_
  cases q with
  | none => exact Tri.ret _ (by simp [Copied, OSIP_NOMEM]) fun b => by simp [ownPtr, ownOpt]
  | some a =>
    refine (strdup_tri ok _).seq (F := ownPtr (some a)) (fun b => by simp) fun s1 _ => ?_
    split
    · rename_i h; rw [missing_none h]
      exact Tri.fail (via_free_tri _) (by decide) fun b => by simp [ownOpt, ownVia, ownList, ownPtr]
    refine (strdup_tri ok _).seq (F := fun b => ownPtr s1 b + ownPtr (some a) b) (fun b => by simp) fun s2 _ => ?_
    split
    · rename_i h; rw [missing_none h]
      exact Tri.fail (via_free_tri _) (by decide) fun b => by simp [ownOpt, ownVia, ownList, ownPtr]
    refine (strdup_tri ok _).seq (F := fun b => ownPtr s1 b + ownPtr s2 b + ownPtr (some a) b) (fun b => by omega) fun s3 _ => ?_
    split
    · rename_i h; rw [missing_none h]
      exact Tri.fail (via_free_tri _) (by decide) fun b => by simp [ownOpt, ownVia, ownList, ownPtr]
    refine (strdup_tri ok _).seq (F := fun b => ownPtr s1 b + ownPtr s2 b + ownPtr s3 b + ownPtr (some a) b) (fun b => by omega)
      fun s4 _ => ?_
    split
    · rename_i h; rw [missing_none h]
      exact Tri.fail (via_free_tri _) (by decide) fun b => by simp [ownOpt, ownVia, ownList, ownPtr]
    refine (strdup_tri ok _).seq (F := fun b => ownPtr s1 b + ownPtr s2 b + ownPtr s3 b + ownPtr s4 b + ownPtr (some a) b)
      (fun b => by omega) fun s5 _ => ?_
    split
    · rename_i h; rw [missing_none h]
      exact Tri.fail (via_free_tri _) (by decide) fun b => by simp [ownOpt, ownVia, ownList, ownPtr]
    refine (list_clone_tri hn _ _).seq (F := fun b => ownPtr s1 b + ownPtr s2 b + ownPtr s3 b + ownPtr s4 b + ownPtr s5 b +
      ownPtr (some a) b) (fun b => by simp only [ownList]; omega) fun r _ => ?_
    obtain ⟨i, ps⟩ := r
    by_cases hi : i ≠ 0
    · simp only [if_pos hi]
      exact Tri.fail (via_free_tri _) hi fun b => by simp only [ownOpt, ownVia]; omega
    simp only [if_neg hi]
    exact Tri.ret _ (by simp [Copied, OSIP_SUCCESS]) fun b => by simp only [ownOpt, ownVia]; omega

theorem pair_free_tri (p : Option PPair) : Tri (ownOpt ownPair p) (pair_free p) (fun _ => True) (fun _ _ => 0) := by
  cases p with
  | none => exact Tri.ret _ trivial fun b => rfl
  | some p =>
    obtain ⟨a, s1, s2⟩ := p
    unfold pair_free
    refine (free_tri s1).seq (F := fun b => ownPtr s2 b + ownPtr (some a) b) (fun b => by simp only [ownOpt, ownPair]; omega) fun _ _ => ?_
    refine (free_tri s2).seq (F := ownPtr (some a)) (fun b => by omega) fun _ _ => ?_
    exact (free_tri _).pre_eq fun b => by simp

theorem call_id_clone_tri (ok : Oracle) (c : Option CallId) :
    Tri (fun _ => 0) (call_id_clone ok c) Copied (fun r => ownOpt ownPair r.2) := by
  unfold call_id_clone
  cases c with
  | none => exact Tri.ret _ (by simp [Copied, OSIP_BADPARAMETER]) fun b => rfl
  | some c =>
  dsimp only
  split
  · exact Tri.ret _ (by simp [Copied, OSIP_BADPARAMETER]) fun b => rfl
  refine (malloc_tri ok .struct).bind fun q _ => ?_
  cases q with
  | none => exact Tri.ret _ (by simp [Copied, OSIP_NOMEM]) fun b => by simp [ownPtr, ownOpt]
  | some a =>
    refine (strdup_tri ok _).seq (F := ownPtr (some a)) (fun b => by simp) fun s1 _ => ?_
    refine (strdup_tri ok _).seq (F := fun b => ownPtr s1 b + ownPtr (some a) b) (fun b => by simp) fun s2 _ => ?_
    exact Tri.ret _ (by simp [Copied, OSIP_SUCCESS]) fun b => by simp only [ownOpt, ownPair]; omega

theorem cseq_clone_tri (ok : Oracle) (c : Option CSeq) :
    Tri (fun _ => 0) (cseq_clone ok c) Copied (fun r => ownOpt ownPair r.2) := by
  unfold cseq_clone
  cases c with
  | none => exact Tri.ret _ (by simp [Copied, OSIP_BADPARAMETER]) fun b => rfl
  | some c =>
  dsimp only
  split
  · exact Tri.ret _ (by simp [Copied, OSIP_BADPARAMETER]) fun b => rfl
  split
  · exact Tri.ret _ (by simp [Copied, OSIP_BADPARAMETER]) fun b => rfl
  refine (malloc_tri ok .struct).bind fun q _ => ?_
  cases q with
  | none => exact Tri.fail (pair_free_tri none) (by decide) fun b => by simp [ownPtr, ownOpt]
  | some a =>
    refine (strdup_tri ok _).seq (F := ownPtr (some a)) (fun b => by simp) fun s1 _ => ?_
    refine (strdup_tri ok _).seq (F := fun b => ownPtr s1 b + ownPtr (some a) b) (fun b => by simp) fun s2 _ => ?_
    exact Tri.ret _ (by simp [Copied, OSIP_SUCCESS]) fun b => by simp only [ownOpt, ownPair]; omega

theorem fifo_init_tri (ok : Oracle) (ff : Nat) :
    Tri (ownPtr (some ff)) (fifo_init ok ff) (fun _ => True) ownFifo := by
  unfold fifo_init
  refine (malloc_tri ok .struct).seq (F := ownPtr (some ff)) (fun b => by simp) fun s1 _ => ?_
  refine (malloc_tri ok .struct).seq (F := fun b => ownPtr s1 b + ownPtr (some ff) b) (fun b => by simp) fun s2 _ => ?_
  exact Tri.ret _ trivial fun b => by simp only [ownFifo]; omega

theorem fifo_free_tri (f : Option PFifo) : Tri (ownOpt ownFifo f) (fifo_free f) (fun _ => True) (fun _ _ => 0) := by
  cases f with
  | none => exact Tri.ret _ trivial fun b => rfl
  | some f =>
    obtain ⟨a, s1, s2⟩ := f
    unfold fifo_free
    refine (free_tri s1).seq (F := fun b => ownPtr s2 b + ownPtr (some a) b) (fun b => by simp only [ownOpt, ownFifo]; omega) fun _ _ => ?_
    refine (free_tri s2).seq (F := ownPtr (some a)) (fun b => by omega) fun _ _ => ?_
    exact (free_tri _).pre_eq fun b => by simp

theorem ctx_free_tri (c : Option PCtx) : Tri (ownOpt ownCtx c) (ctx_free c) (fun _ => True) (fun _ _ => 0) := by
  cases c with
  | none => exact Tri.ret _ trivial fun b => rfl
  | some c =>
    obtain ⟨a, s1⟩ := c
    unfold ctx_free
    refine (free_tri s1).seq (F := ownPtr (some a)) (fun b => by simp only [ownOpt, ownCtx]) fun _ _ => ?_
    exact (free_tri _).pre_eq fun b => by simp

theorem lift_tri {α : Type} {o : Option α} {x : α} (h : o = some x) : Tri (fun _ => 0) (o : M α) (fun y => y = x) (fun _ _ => 0) := by
  intro m fr hm
  exact ⟨x, m, by subst h; rfl, rfl, hm⟩

theorem ctx_init_tri (ok : Oracle) (k : Kind) {req : Msg} {via : Via} {vias : List Via} (hv : req.vias = via :: vias)
    (hp : via.protocol ≠ none) (hd : k = .ICT ∨ k = .NICT → requestDestination req ≠ none) :
    Tri (fun _ => 0) (ctx_init ok k req) Copied (fun r => ownOpt ownCtx r.2) := by
  have hp' : via.protocol.isNone = false := by simpa using Option.ne_none_iff_isSome.1 hp
  have client : requestDestination req ≠ none → ∀ a, Tri (ownPtr (some a)) (do
      let (h, _) ← (requestDestination req : M (Option Str × Int))
      let d ← strdup ok h
      let c ← set_destination ⟨a, none⟩ d
      return (OSIP_SUCCESS, some c)) Copied (fun r => ownOpt ownCtx r.2) := by
    intro h a
    obtain ⟨⟨h, p⟩, e⟩ := Option.ne_none_iff_exists'.1 h
    refine (lift_tri e).seq (F := ownPtr (some a)) (fun b => by simp) fun r hr => ?_
    subst hr
    refine (strdup_tri ok h).seq (F := ownPtr (some a)) (fun b => by simp) fun d _ => ?_
    unfold set_destination
    refine Tri.bind (mid := fun c => ownCtx c) (Q := fun _ => True) ?_ fun c _ => Tri.ret _ (by simp [Copied, OSIP_SUCCESS]) fun b => rfl
    refine (free_tri none).seq (F := fun b => ownPtr d b + ownPtr (some a) b) (fun b => by simp [ownPtr]) fun _ _ => ?_
    exact Tri.ret _ trivial fun b => by simp only [ownCtx]; omega
  unfold ctx_init
  cases k with
  | ICT =>
    dsimp only
    unfold ict_init
    refine (malloc_tri ok .struct).bind fun q _ => ?_
    cases q with
    | none => exact Tri.ret _ (by simp [Copied, OSIP_NOMEM]) fun b => by simp [ownPtr, ownOpt]
    | some a =>
      simp only [hv, hp']
      exact client (hd (.inl rfl)) a
  | NICT =>
    dsimp only
    unfold nict_init
    refine (malloc_tri ok .struct).bind fun q _ => ?_
    cases q with
    | none => exact Tri.ret _ (by simp [Copied, OSIP_NOMEM]) fun b => by simp [ownPtr, ownOpt]
    | some a =>
      simp only [hv, hp']
      exact client (hd (.inr rfl)) a
  | IST =>
    dsimp only
    unfold server_init
    refine (malloc_tri ok .struct).bind fun q _ => ?_
    cases q with
    | none => exact Tri.ret _ (by simp [Copied, OSIP_NOMEM]) fun b => by simp [ownPtr, ownOpt]
    | some a =>
      simp only [hv, hp']
      exact Tri.ret _ (by simp [Copied, OSIP_SUCCESS]) fun b => by simp [ownOpt, ownCtx, ownPtr]
  | NIST =>
    dsimp only
    unfold server_init
    refine (malloc_tri ok .struct).bind fun q _ => ?_
    cases q with
    | none => exact Tri.ret _ (by simp [Copied, OSIP_NOMEM]) fun b => by simp [ownPtr, ownOpt]
    | some a =>
      simp only [hv, hp']
      exact Tri.ret _ (by simp [Copied, OSIP_SUCCESS]) fun b => by simp [ownOpt, ownCtx, ownPtr]

theorem transaction_free_tri (t : PTrans) : Tri (ownTrans t) (transaction_free t) (fun _ => True) (fun _ _ => 0) := by
  obtain ⟨a, v, f, t, c, s, ff, x⟩ := t
  unfold transaction_free
  refine (ctx_free_tri x).seq (F := fun b => ownOpt ownFifo ff b + ownOpt ownVia v b + ownOpt ownFrom f b + ownOpt ownFrom t b +
    ownOpt ownPair c b + ownOpt ownPair s b + ownPtr (some a) b) (fun b => by simp only [ownTrans]; omega) fun _ _ => ?_
  refine (fifo_free_tri ff).seq (F := fun b => ownOpt ownVia v b + ownOpt ownFrom f b + ownOpt ownFrom t b +
    ownOpt ownPair c b + ownOpt ownPair s b + ownPtr (some a) b) (fun b => by omega) fun _ _ => ?_
  refine (via_free_tri v).seq (F := fun b => ownOpt ownFrom f b + ownOpt ownFrom t b +
    ownOpt ownPair c b + ownOpt ownPair s b + ownPtr (some a) b) (fun b => by omega) fun _ _ => ?_
  refine (from_free_tri f).seq (F := fun b => ownOpt ownFrom t b +
    ownOpt ownPair c b + ownOpt ownPair s b + ownPtr (some a) b) (fun b => by omega) fun _ _ => ?_
  refine (from_free_tri t).seq (F := fun b => ownOpt ownPair c b + ownOpt ownPair s b + ownPtr (some a) b) (fun b => by omega) fun _ _ => ?_
  refine (pair_free_tri c).seq (F := fun b => ownOpt ownPair s b + ownPtr (some a) b) (fun b => by omega) fun _ _ => ?_
  refine (pair_free_tri s).seq (F := ownPtr (some a)) (fun b => by omega) fun _ _ => ?_
  exact (free_tri _).pre_eq fun b => by simp

theorem Copied.fail {α : Type} {i : Int} {o : Option α} (h : Copied (i, o)) (hi : i ≠ 0) : o = none :=
  Classical.byContradiction fun e => hi (h.2 e)

theorem transaction_init_tri {ok : Oracle} (hn : ∀ n, ok .node n = true) (k : Kind) (req : Msg)
    (hd : k = .ICT ∨ k = .NICT → requestDestination req ≠ none) :
    Tri (fun _ => 0) (osip_transaction_init ok k req) Copied (fun r => ownOpt ownTrans r.2) := by
  unfold osip_transaction_init
  split
  · exact Tri.ret _ (by simp [Copied, OSIP_BADPARAMETER]) fun b => rfl
  split
  · exact Tri.ret _ (by simp [Copied, OSIP_BADPARAMETER]) fun b => rfl
  refine (malloc_tri ok .struct).bind fun q _ => ?_
  cases q with
  | none => exact Tri.ret _ (by simp [Copied, OSIP_NOMEM]) fun b => by simp [ownPtr, ownOpt]
  | some a =>
  dsimp only
  cases hv : req.vias with
  | nil => exact Tri.fail (transaction_free_tri _) (by decide) fun b => by simp [ownTrans, ownOpt]
  | cons via vias =>
  refine (via_clone_tri hn via).seq (F := ownPtr (some a)) (fun b => by simp) fun r hr => ?_
  obtain ⟨i, v⟩ := r
  obtain ⟨hr, hp⟩ := hr
  by_cases hi : i ≠ 0
  · simp only [if_pos hi, hr.fail hi]
    exact Tri.fail (transaction_free_tri _) hi fun b => by simp [ownTrans, ownOpt]
  have hp : via.protocol ≠ none := hp (hr.1 (Classical.not_not.1 hi))
  simp only [if_neg hi]
  refine (from_clone_tri hn _).seq (F := fun b => ownOpt ownVia v b + ownPtr (some a) b) (fun b => by simp) fun r hr => ?_
  obtain ⟨i, f⟩ := r
  by_cases hi : i ≠ 0
  · simp only [if_pos hi, hr.fail hi]
    exact Tri.fail (transaction_free_tri _) hi fun b => by simp [ownTrans, ownOpt]
  simp only [if_neg hi]
  refine (from_clone_tri hn _).seq (F := fun b => ownOpt ownVia v b + ownOpt ownFrom f b + ownPtr (some a) b) (fun b => by omega)
    fun r hr => ?_
  obtain ⟨i, t⟩ := r
  by_cases hi : i ≠ 0
  · simp only [if_pos hi, hr.fail hi]
    exact Tri.fail (transaction_free_tri _) hi fun b => by simp [ownTrans, ownOpt]
  simp only [if_neg hi]
  refine (call_id_clone_tri ok _).seq (F := fun b => ownOpt ownVia v b + ownOpt ownFrom f b + ownOpt ownFrom t b + ownPtr (some a) b)
    (fun b => by omega) fun r hr => ?_
  obtain ⟨i, c⟩ := r
  by_cases hi : i ≠ 0
  · simp only [if_pos hi, hr.fail hi]
    exact Tri.fail (transaction_free_tri _) hi fun b => by simp [ownTrans, ownOpt]
  simp only [if_neg hi]
  refine (cseq_clone_tri ok _).seq (F := fun b => ownOpt ownVia v b + ownOpt ownFrom f b + ownOpt ownFrom t b + ownOpt ownPair c b +
    ownPtr (some a) b) (fun b => by omega) fun r hr => ?_
  obtain ⟨i, s⟩ := r
  by_cases hi : i ≠ 0
  · simp only [if_pos hi, hr.fail hi]
    exact Tri.fail (transaction_free_tri _) hi fun b => by simp [ownTrans, ownOpt]
  simp only [if_neg hi]
  refine (malloc_tri ok .struct).seq (F := fun b => ownOpt ownVia v b + ownOpt ownFrom f b + ownOpt ownFrom t b + ownOpt ownPair c b +
    ownOpt ownPair s b + ownPtr (some a) b) (fun b => by omega) fun q _ => ?_
  cases q with
  | none => exact Tri.fail (transaction_free_tri _) (by decide) fun b => by simp [ownTrans, ownOpt, ownPtr]
  | some ff =>
  refine (fifo_init_tri ok ff).seq (F := fun b => ownOpt ownVia v b + ownOpt ownFrom f b + ownOpt ownFrom t b + ownOpt ownPair c b +
    ownOpt ownPair s b + ownPtr (some a) b) (fun b => by omega) fun q _ => ?_
  refine (ctx_init_tri ok k hv hp hd).seq (F := fun b => ownFifo q b + ownOpt ownVia v b + ownOpt ownFrom f b + ownOpt ownFrom t b +
    ownOpt ownPair c b + ownOpt ownPair s b + ownPtr (some a) b) (fun b => by omega) fun r hr => ?_
  obtain ⟨i, x⟩ := r
  by_cases hi : i ≠ 0
  · simp only [if_pos hi, hr.fail hi]
    exact Tri.fail (transaction_free_tri _) hi fun b => by simp only [ownTrans, ownOpt]; omega
  simp only [if_neg hi]
  exact Tri.ret _ (by simp [Copied, OSIP_SUCCESS]) fun b => by simp only [ownOpt, ownTrans]; omega

/-! ## C59 -/

/-- **C59**: whatever allocation fails, unless it is the one of a list node, the set-up has no undefined behaviour. If it fails, no
transaction is returned and exactly the blocks allocated before are allocated; if it succeeds, this is so when the transaction is
freed. A client transaction needs a request URI. -/
theorem c59_setup_partial {ok : Oracle} (hn : ∀ n, ok .node n = true) (k : Kind) (req : Msg)
    (hd : k = .ICT ∨ k = .NICT → req.req_uri ≠ none) (m : Mem) :
    ∃ i t m', osip_transaction_init ok k req m = some ((i, t), m') ∧
      (i ≠ 0 → t = none ∧ m'.live.Perm m.live) ∧
      (i = 0 → ∃ t', t = some t' ∧ ∃ m'', transaction_free t' m' = some ((), m'') ∧ m''.live.Perm m.live) := by
  obtain ⟨⟨i, t⟩, m', e, hc, hl⟩ := transaction_init_tri hn k req
    (fun h => Option.ne_none_iff_isSome.2 (requestDestination_isSome (Option.ne_none_iff_isSome.1 (hd h)))) m (fun b => m.live.count b) (fun b => by simp)
  refine ⟨i, t, m', e, fun hi => ?_, fun hi => ?_⟩
  · have ht : t = none := hc.fail hi
    subst ht
    exact ⟨rfl, List.perm_iff_count.2 fun b => by simpa [ownOpt] using hl b⟩
  · obtain ⟨t', rfl⟩ := Option.ne_none_iff_exists'.1 (hc.1 hi)
    obtain ⟨⟨⟩, m'', e', -, hl'⟩ := transaction_free_tri t' m' _ hl
    exact ⟨t', rfl, m'', e', List.perm_iff_count.2 fun b => by simpa using hl' b⟩

/-- A request with a parameter in its Via. -/
def setupRequest : Msg :=
  { sip_method := some "INVITE".toList, req_uri := some { host := some "h".toList },
    vias := [{ version := some "2.0".toList, protocol := some "UDP".toList, host := some "h".toList,
               via_params := [⟨"branch".toList, some "z".toList⟩] }],
    from_ := some { url := some { host := some "a".toList } }, to := some { displayname := some "b".toList },
    call_id := some { number := some "1".toList }, cseq := some { method := some "INVITE".toList, number := some "1".toList } }

/-- **C59** does not hold. If the node for the parameter of the Via cannot be allocated, and afterwards the copy of the From header
cannot either, the set-up fails and three blocks stay allocated which nothing points to. And `__osip_ict_init` called with a request
without Via leaves a pointer to the freed context behind; what `osip_transaction_init` does when it fails frees it again. -/
theorem c59_violated :
    (∃ ok : Oracle, osip_transaction_init ok .ICT setupRequest {} = some ((OSIP_NOMEM, none), ⟨10, [7, 6, 5]⟩)) ∧
    (∀ ok m req, req.vias = [] → ok .struct m.count = true →
      (ict_init ok req m).map (fun r => r.1.1) = some OSIP_UNDEFINED_ERROR ∧ (m.count ∉ m.live →
      (do let (_, c) ← ict_init ok req; ctx_free c) m = none)) := by
  constructor
  · exact ⟨fun t n => !(t == .node && n == 8) && !(n == 9), by decide +kernel⟩
  · intro ok m req hv h
    have e : ict_init ok req m = some ((OSIP_UNDEFINED_ERROR, some ⟨m.count, none⟩), { m with count := m.count + 1 }) := by
      unfold ict_init
      show (malloc ok .struct m).bind _ = _
      unfold malloc
      simp only [h, if_true, Option.bind_some, hv]
      show (free (some m.count) _).bind _ = _
      unfold free
      simp
      rfl
    refine ⟨by rw [e]; rfl, fun hm => ?_⟩
    show (ict_init ok req m).bind (fun r => ctx_free r.1.2 r.2) = none
    rw [e, Option.bind_some]
    simp [ctx_free, free, hm, bind, StateT.bind]

/-- The context cannot be allocated: everything else is freed. -/
example : osip_transaction_init (fun _ n => n != 22) .ICT setupRequest {} = some ((OSIP_NOMEM, none), ⟨23, []⟩) := by decide +kernel

/-- The set-up succeeds, and the transaction can be freed. -/
example : ((do let (_, t) ← osip_transaction_init (fun _ _ => true) .ICT setupRequest
               transaction_free (t.getD ⟨0, none, none, none, none, none, none, none⟩)) : M Unit) {} = some ((), ⟨24, []⟩) := by decide +kernel

end Osip.Setup
