import Verif.Base

/-!
# Who owns which block of memory: a language for what the functions of src/osipparser2 do with memory

The parsing functions are long, but what they do with memory is little: they allocate blocks, store pointers to them in variables and in the
fields of structures, test pointers against NULL, and give blocks back. This language has these operations. Every condition on the text that
is parsed is replaced by `choose`, which takes any of the two ways, and so is every call of `osip_malloc`, which may fail. What is proved of all
executions of the programs thus holds of the executions of the C code for every text and every pattern of failing allocations.

A variable holds NULL, a pointer to a block, or nothing yet (an uninitialised variable). A block is
* `fresh`: a structure that was just made, all its fields are NULL;
* `live`: in use, somebody has to give it back;
* `kept`: in use, and a structure or a list holds the pointer to it, so it is given back by the `_free` function of that structure;
* `freed`.

Errors are: reading or testing an uninitialised variable, using NULL or a block that was given back, giving back a block twice or one which
a structure keeps, filling a structure that is not empty, and leaving a pointer to a block given back in a field.

Simplified: reading and writing at offsets inside of blocks is not modelled here (see Verif/Parser); giving back a structure with its `_free`
function is `free`, the blocks it keeps go with it (Verif/Copy models the `_free` functions); the elements and the nodes of a list are one block.
-/

set_option autoImplicit false

namespace Osip.Own

/-- The content of a variable. -/
inductive Val
  | junk
  | null
  | ptr (b : Nat)
  deriving DecidableEq, Repr

/-- The state of a block. -/
inductive Cell
  | fresh
  | live
  | kept
  | freed
  deriving DecidableEq, Repr

/-- Somebody has to give the block back. -/
def Cell.owed : Cell → Bool
  | .fresh => true
  | .live => true
  | _ => false

/-- The block may be read. -/
def Cell.usable : Cell → Bool
  | .freed => false
  | _ => true

/-- Statements. Variables are numbers; `F` is the type of the names of functions. -/
inductive Stmt (F : Type)
  | skip
  | seq (s t : Stmt F)
  /-- `x = osip_malloc (...)`, `x = osip_strdup (...)`: a string -/
  | alloc (x : Nat)
  /-- `x = osip_malloc (sizeof (...))` where all fields are set to NULL after it: an empty structure -/
  | make (x : Nat)
  /-- `x = osip_realloc (y, ...)` -/
  | realloc (x y : Nat)
  /-- `osip_free (x)`, or the `_free` function of a structure -/
  | free (x : Nat)
  /-- `x = NULL` -/
  | null (x : Nat)
  /-- `x = y` -/
  | copy (x y : Nat)
  /-- `*x` or `x->...` is read or written -/
  | use (x : Nat)
  /-- the fields of the empty structure `x` are going to be filled -/
  | fill (x : Nat)
  /-- the pointer `x` is stored in a structure or in a list that was there before -/
  | keep (x : Nat)
  /-- the field `x` of a structure that was there before: it is NULL or not -/
  | field (x : Nat)
  /-- `osip_list_add (..., x, -1)` (src/osipparser2/osip_list.c:101-174) -/
  | listAdd (x : Nat)
  /-- `if (x == NULL) s else t` -/
  | ifNull (x : Nat) (s t : Stmt F)
  /-- `if (i == 0) s else t`, where `i` is what the last call returned -/
  | ifOk (s t : Stmt F)
  /-- a condition on the text -/
  | choose (s t : Stmt F)
  /-- `while (1) s` -/
  | loop (s : Stmt F)
  | brk
  | cont
  /-- `i = f (args)`; the arguments are variables of the caller, which the called function may change -/
  | call (f : F) (args : List Nat)
  /-- `return OSIP_SUCCESS` or `return` of an error -/
  | ret (ok : Bool)
  /-- `return i` -/
  | retI

/-- Which allocations may fail. -/
inductive Mode
  /-- none -/
  | none
  /-- all but those of the nodes of lists -/
  | notNodes
  /-- all -/
  | any
  deriving DecidableEq, Repr

/-- A function: the number of variables, the first `params` of them are the parameters, and the fields (a variable with the variable that
points to the structure). -/
structure Fn (F : Type) where
  vars : Nat
  params : Nat
  fields : List (Nat × Nat)
  body : Stmt F

/-- A state: the variables of the function, the blocks, the result of the last call and the choices to come. -/
structure St where
  store : List Val
  heap : List Cell
  ok : Bool
  picks : List Bool
  deriving DecidableEq, Repr

/-- How a statement ends. -/
inductive Res
  | norm (s : St)
  | brk (s : St)
  | cont (s : St)
  | ret (ok : Bool) (s : St)
  | err
  /-- the bound on the length of the execution was reached -/
  | more
  deriving DecidableEq, Repr

namespace St

def get (s : St) (x : Nat) : Val := (s.store[x]?).getD .junk
def cell (s : St) (b : Nat) : Cell := (s.heap[b]?).getD .freed
def set (s : St) (x : Nat) (v : Val) : St := { s with store := s.store.set x v }
def mark (s : St) (b : Nat) (c : Cell) : St := { s with heap := s.heap.set b c }

/-- The next choice. -/
def pick (s : St) : Bool := s.picks.headD false
def next (s : St) : St := { s with picks := s.picks.tail }

/-- `x` points to a new block. -/
def fresh (s : St) (x : Nat) (c : Cell) : St := { s.set x (.ptr s.heap.length) with heap := s.heap ++ [c] }

/-- `osip_malloc`: the next choice tells if it fails, provided that it may fail. -/
def malloc (may : Bool) (s : St) (x : Nat) (c : Cell) : St :=
  if may then if s.pick then s.next.set x .null else s.next.fresh x c else s.fresh x c

/-- The pointers in the fields when the function returns. -/
def leave (s : St) : List (Nat × Nat) → Option St
  | [] => some s
  | (x, o) :: r =>
    match s.get o with
    | .ptr c =>
      if (s.cell c).usable then
        match s.get x with
        | .ptr b => if (s.cell b).owed then (s.mark b .kept).leave r else if s.cell b = .kept then s.leave r else none
        | .null => s.leave r
        | .junk => s.leave r
      else s.leave r
    | _ => s.leave r

/-- The values of the arguments. -/
def args (s : St) (xs : List Nat) : List Val := xs.map s.get

/-- The values of the arguments go back to the caller. -/
def back (s : St) : List Nat → List Val → St
  | x :: xs, v :: vs => (s.set x v).back xs vs
  | _, _ => s

end St

/-- The store of a called function: the arguments and uninitialised variables. -/
def Fn.enter {F : Type} (f : Fn F) (vs : List Val) : List Val := vs ++ List.replicate (f.vars - f.params) .junk

/-- The execution of a statement, for at most `n` levels. -/
def exec {F : Type} (m : Mode) (tbl : F → Fn F) : Nat → Stmt F → St → Res
  | 0, _, _ => .more
  | _ + 1, .skip, s => .norm s
  | n + 1, .seq a b, s =>
    match exec m tbl n a s with
    | .norm s' => exec m tbl n b s'
    | r => r
  | _ + 1, .alloc x, s => .norm (s.malloc (m != .none) x .live)
  | _ + 1, .make x, s => .norm (s.malloc (m != .none) x .fresh)
  | _ + 1, .realloc x y, s =>
    match s.get y with
    | .junk => .err
    | .null => .norm (s.malloc (m != .none) x .live)
    | .ptr b =>
      if (s.cell b).owed then
        if m = .none then .norm ((s.mark b .freed).fresh x .live)
        else if s.pick then .norm (s.next.set x .null)
        else .norm ((s.next.mark b .freed).fresh x .live)
      else .err
  | _ + 1, .free x, s =>
    match s.get x with
    | .junk => .err
    | .null => .norm s
    | .ptr b => if (s.cell b).owed then .norm (s.mark b .freed) else .err
  | _ + 1, .null x, s => .norm (s.set x .null)
  | _ + 1, .copy x y, s =>
    match s.get y with
    | .junk => .err
    | v => .norm (s.set x v)
  | _ + 1, .use x, s =>
    match s.get x with
    | .ptr b => if (s.cell b).usable then .norm s else .err
    | _ => .err
  | _ + 1, .fill x, s =>
    match s.get x with
    | .ptr b => if s.cell b = .fresh then .norm (s.mark b .live) else .err
    | _ => .err
  | _ + 1, .keep x, s =>
    match s.get x with
    | .ptr b => if (s.cell b).owed then .norm (s.mark b .kept) else .err
    | .null => .norm s
    | .junk => .err
  | _ + 1, .field x, s => if s.pick then .norm (s.next.fresh x .live) else .norm (s.next.set x .null)
  | _ + 1, .listAdd x, s =>
    match s.get x with
    | .ptr b =>
      if (s.cell b).owed then
        if m = .any then if s.pick then .norm { s.next with ok := false } else .norm { s.next.mark b .kept with ok := true }
        else .norm { s.mark b .kept with ok := true }
      else .err
    | _ => .err
  | n + 1, .ifNull x a b, s =>
    match s.get x with
    | .junk => .err
    | .null => exec m tbl n a s
    | .ptr _ => exec m tbl n b s
  | n + 1, .ifOk a b, s => if s.ok then exec m tbl n a s else exec m tbl n b s
  | n + 1, .choose a b, s => if s.pick then exec m tbl n a s.next else exec m tbl n b s.next
  | n + 1, .loop a, s =>
    match exec m tbl n a s with
    | .norm s' => exec m tbl n (.loop a) s'
    | .cont s' => exec m tbl n (.loop a) s'
    | .brk s' => .norm s'
    | r => r
  | _ + 1, .brk, s => .brk s
  | _ + 1, .cont, s => .cont s
  | n + 1, .call k xs, s =>
    match exec m tbl n (tbl k).body { s with store := (tbl k).enter (s.args xs), ok := false } with
    | .ret ok s' =>
      match s'.leave (tbl k).fields with
      | some s'' => .norm ({ s with heap := s''.heap, picks := s''.picks, ok := ok }.back xs s''.store)
      | Option.none => .err
    | .more => .more
    | _ => .err
  | _ + 1, .ret ok, s => .ret ok s
  | _ + 1, .retI, s => .ret s.ok s

/-- What an argument is when a function is called from outside. -/
inductive Arg
  /-- an uninitialised variable (of a caller that passes its address) -/
  | none
  | null
  /-- an empty structure -/
  | empty
  /-- a string, or a structure that is not empty -/
  | block
  /-- a structure that another one keeps -/
  | kept
  deriving DecidableEq, Repr

def Arg.cell : Arg → Option Cell
  | .empty => some .fresh
  | .block => some .live
  | .kept => some .kept
  | _ => Option.none

/-- The arguments in memory. -/
def place : List Arg → List Cell → List Val × List Cell
  | [], h => ([], h)
  | a :: l, h =>
    match a.cell with
    | some c => let r := place l (h ++ [c]); (.ptr h.length :: r.1, r.2)
    | Option.none => let r := place l h; ((if a = .null then .null else .junk) :: r.1, r.2)

/-- A call of a function from outside, for at most `n` levels, with given choices. -/
def run {F : Type} (m : Mode) (tbl : F → Fn F) (n : Nat) (f : F) (args : List Arg) (picks : List Bool) : Res :=
  match exec m tbl n (tbl f).body ⟨(tbl f).enter (place args []).1, (place args []).2, false, picks⟩ with
  | .ret ok s =>
    match s.leave (tbl f).fields with
    | some s => .ret ok s
    | Option.none => .err
  | .more => .more
  | _ => .err

/-- The function goes on or returns, and if it returns then every block in use is kept by a structure or one of the `k` arguments points to it. -/
def NoLeak (k : Nat) : Res → Prop
  | .ret _ s => ∀ b, (s.cell b).owed = true → ∃ x, x < k ∧ s.get x = .ptr b
  | .more => True
  | _ => False

end Osip.Own
