import Verif.Own.Lang

/-!
# A checker for programs of Verif/Own/Lang.lean, and the proof that it is right

The checker runs a program on what is known of the variables (`A`) in place of their contents, takes both ways at every choice, and runs loops
until nothing new is found. It looks at a called function only through its contract: what the parameters are before and after the call.

Nothing here is part of the model; the theorems of Verif/Own/Props.lean speak of `exec` only.
-/

set_option autoImplicit false

namespace Osip.Own

/-- What is known of a variable. -/
inductive A
  /-- nothing -/
  | dead
  | null
  /-- an empty structure, owned by this variable -/
  | fresh
  /-- a block owned by this variable -/
  | live
  /-- a block which a structure keeps -/
  | kept
  /-- a block given back -/
  | gone
  deriving DecidableEq, Repr

def A.own : A → Bool
  | .fresh => true
  | .live => true
  | _ => false

structure AS where
  vars : List A
  ok : Bool
  deriving DecidableEq, Repr

/-- Parameters before the call, and after it for each result. -/
abbrev Contract := List (List A × List (Bool × List A))

structure Outs where
  norm : List AS
  brk : List AS
  cont : List AS
  ret : List (Bool × AS)

def Outs.empty : Outs := ⟨[], [], [], []⟩
def Outs.one (a : AS) : Outs := ⟨[a], [], [], []⟩

/-- Union. -/
def join {α : Type} [DecidableEq α] (l : List α) : List α → List α
  | [] => l
  | b :: m => if b ∈ l then join l m else join (b :: l) m

def Outs.union (o p : Outs) : Outs := ⟨join o.norm p.norm, join o.brk p.brk, join o.cont p.cont, join o.ret p.ret⟩

namespace AS
def get (a : AS) (x : Nat) : A := (a.vars[x]?).getD .dead
def set (a : AS) (x : Nat) (v : A) : AS := { a with vars := a.vars.set x v }

/-- Overwrite a variable that owns nothing. -/
def put (a : AS) (x : Nat) (v : A) : Option AS :=
  if x < a.vars.length ∧ (a.get x).own = false then some (a.set x v) else none

def leave (a : AS) : List (Nat × Nat) → Option AS
  | [] => some a
  | (x, o) :: r =>
    match a.get o with
    | .dead => none
    | .null => a.leave r
    | .gone => a.leave r
    | _ =>
      match a.get x with
      | .fresh => (a.set x .kept).leave r
      | .live => (a.set x .kept).leave r
      | .null => a.leave r
      | .kept => a.leave r
      | _ => none

def back (a : AS) : List Nat → List A → AS
  | x :: xs, v :: vs => (a.set x v).back xs vs
  | _, _ => a

def args (a : AS) (xs : List Nat) : List A := xs.map a.get
end AS

/-- All states of a list. -/
def checkAll (f : AS → Option Outs) : List AS → Option Outs
  | [] => some .empty
  | a :: l =>
    match f a, checkAll f l with
    | some o, some p => some (o.union p)
    | _, _ => none

/-- Find a set of states which the body of the loop does not leave. -/
def checkLoop (f : AS → Option Outs) : Nat → List AS → Option Outs
  | 0, _ => none
  | k + 1, l =>
    match checkAll f l with
    | none => none
    | some o =>
      if (∀ a ∈ o.norm, a ∈ l) ∧ (∀ a ∈ o.cont, a ∈ l) then some ⟨o.brk, [], [], o.ret⟩
      else checkLoop f k (join (join l o.norm) o.cont)

def two (a b : Option AS) : Option Outs :=
  match a, b with
  | some a, some b => some ((Outs.one a).union (.one b))
  | _, _ => none

/-- One or two outcomes: `b` only if the allocation may fail. -/
def may (m : Bool) (a b : Option AS) : Option Outs := if m then two a b else a.map .one

def callOuts (a : AS) (xs : List Nat) (rs : List (Bool × List A)) : Outs :=
  ⟨rs.map fun r => { a.back xs r.2 with ok := r.1 }, [], [], []⟩

/-- The arguments are as the contract wants them; nothing is wanted of an argument where the contract has `dead`, but it must own nothing. -/
def fit : List A → List A → Bool
  | [], [] => true
  | e :: es, a :: as => (e == a || (e == .dead && !a.own)) && fit es as
  | _, _ => false

def check {F : Type} (m : Mode) (con : F → Contract) : Stmt F → AS → Option Outs
  | .skip, a => some (.one a)
  | .seq s t, a =>
    match check m con s a with
    | none => none
    | some o =>
      match checkAll (check m con t) o.norm with
      | none => none
      | some p => some (Outs.union ⟨[], o.brk, o.cont, o.ret⟩ p)
  | .alloc x, a => may (m != .none) (a.put x .live) (a.put x .null)
  | .make x, a => may (m != .none) (a.put x .fresh) (a.put x .null)
  | .realloc x y, a =>
    match a.get y with
    | .null => may (m != .none) (a.put x .live) (a.put x .null)
    | .fresh => if m != .none ∧ x = y then none else may (m != .none) ((a.set y .gone).put x .live) (a.put x .null)
    | .live => if m != .none ∧ x = y then none else may (m != .none) ((a.set y .gone).put x .live) (a.put x .null)
    | _ => none
  | .free x, a =>
    match a.get x with
    | .null => some (.one a)
    | .fresh => some (.one (a.set x .gone))
    | .live => some (.one (a.set x .gone))
    | _ => none
  | .null x, a => (a.put x .null).map .one
  | .copy x y, a =>
    if x = y then none else
    match a.get y with
    | .null => (a.put x .null).map .one
    | .fresh => (a.put x .fresh).map fun b => .one (b.set y .dead)
    | .live => (a.put x .live).map fun b => .one (b.set y .dead)
    | .kept => (a.put x .kept).map .one
    | _ => none
  | .use x, a =>
    match a.get x with
    | .fresh => some (.one a)
    | .live => some (.one a)
    | .kept => some (.one a)
    | _ => none
  | .fill x, a =>
    match a.get x with
    | .fresh => some (.one (a.set x .live))
    | _ => none
  | .keep x, a =>
    match a.get x with
    | .null => some (.one a)
    | .fresh => some (.one (a.set x .kept))
    | .live => some (.one (a.set x .kept))
    | _ => none
  | .field x, a => two (a.put x .live) (a.put x .null)
  | .listAdd x, a =>
    if (a.get x).own then
      may (m == .any) (some { a.set x .kept with ok := true }) (some { a with ok := false })
    else none
  | .ifNull x s t, a =>
    match a.get x with
    | .null => check m con s a
    | .fresh => check m con t a
    | .live => check m con t a
    | .kept => check m con t a
    | _ => none
  | .ifOk s t, a => if a.ok then check m con s a else check m con t a
  | .choose s t, a =>
    match check m con s a, check m con t a with
    | some o, some p => some (o.union p)
    | _, _ => none
  | .loop s, a => checkLoop (check m con s) 12 [a]
  | .brk, a => some ⟨[], [a], [], []⟩
  | .cont, a => some ⟨[], [], [a], []⟩
  | .call k xs, a =>
    if xs.Nodup ∧ ∀ x ∈ xs, x < a.vars.length then
      match (con k).find? fun e => fit e.1 (a.args xs) with
      | some e => some (callOuts (a.back xs e.1) xs e.2)
      | none => none
    else none
  | .ret ok, a => some ⟨[], [], [], [(ok, a)]⟩
  | .retI, a => some ⟨[], [], [], [(a.ok, a)]⟩

/-- One line of a contract. -/
def checkEntry {F : Type} (m : Mode) (con : F → Contract) (f : Fn F) (e : List A × List (Bool × List A)) : Bool :=
  if e.1.length = f.params ∧ f.params ≤ f.vars ∧ (∀ r ∈ e.2, r.2.length = f.params) then
    match check m con f.body ⟨e.1 ++ List.replicate (f.vars - f.params) .dead, false⟩ with
    | none => false
    | some o =>
      o.norm.isEmpty && o.brk.isEmpty && o.cont.isEmpty &&
      o.ret.all fun r =>
        match r.2.leave f.fields with
        | none => false
        | some a => decide ((r.1, a.vars.take f.params) ∈ e.2) && (a.vars.drop f.params).all fun v => !v.own
  else false

end Osip.Own
