/-!
# MD5: `src/osipparser2/osip_md5c.c`

`UINT4` is `BitVec 32`, `unsigned char` is `BitVec 8`. An access outside an array is undefined (`none`). The statements which erase
memory (:189, :280) are left out.
-/

set_option autoImplicit false

namespace Osip.Md5

abbrev Byte := BitVec 8
abbrev Word := BitVec 32

/-- `UINT4 state[4]`, also the local variables of `osip_MD5Transform`. -/
structure State where
  a : Word
  b : Word
  c : Word
  d : Word
  deriving DecidableEq, Repr

/-- `osip_MD5_CTX` (include/osipparser2/osip_md5.h). -/
structure Ctx where
  state : State
  count0 : Word
  count1 : Word
  buffer : List Byte
  deriving DecidableEq, Repr

/-- `F`, `G`, `H`, `I` (src/osipparser2/osip_md5c.c:73-76). -/
def F (x y z : Word) : Word := (x &&& y) ||| (~~~x &&& z)
@[inherit_doc F] def G (x y z : Word) : Word := (x &&& z) ||| (y &&& ~~~z)
@[inherit_doc F] def H (x y z : Word) : Word := x ^^^ y ^^^ z
@[inherit_doc F] def I (x y z : Word) : Word := y ^^^ (x ||| ~~~z)

/-- `ROTATE_LEFT` (src/osipparser2/osip_md5c.c:80). -/
def rotateLeft (x : Word) (n : Nat) : Word := (x <<< n) ||| (x >>> (32 - n))

/-- The macros for the four rounds. -/
inductive Macro | FF | GG | HH | II
  deriving DecidableEq, Repr

/-- The function of a macro (src/osipparser2/osip_md5c.c:85-104). -/
def Macro.fn : Macro → Word → Word → Word → Word
  | .FF => F
  | .GG => G
  | .HH => H
  | .II => I

/-- The names of the local variables. -/
inductive Reg | a | b | c | d
  deriving DecidableEq, Repr

def State.get (s : State) : Reg → Word
  | .a => s.a
  | .b => s.b
  | .c => s.c
  | .d => s.d

def State.set (s : State) (r : Reg) (w : Word) : State :=
  match r with
  | .a => { s with a := w }
  | .b => { s with b := w }
  | .c => { s with c := w }
  | .d => { s with d := w }

/-- One line `XX (r0, r1, r2, r3, x[k], s, ac);`. -/
structure Line where
  m : Macro
  r0 : Reg
  r1 : Reg
  r2 : Reg
  r3 : Reg
  k : Nat
  s : Nat
  ac : Word
  deriving DecidableEq, Repr

/-- The effect of a line (src/osipparser2/osip_md5c.c:85-104). -/
def Line.run (x : List Word) (st : State) (l : Line) : Option State := do
  let xk ← x[l.k]?
  let v := st.get l.r0 + (l.m.fn (st.get l.r1) (st.get l.r2) (st.get l.r3) + xk + l.ac)
  let v := rotateLeft v l.s
  return st.set l.r0 (v + st.get l.r1)

/-- The lines of `osip_MD5Transform` (src/osipparser2/osip_md5c.c:201-272), the names `S11` … `S44` (:42-57) replaced by the numbers. -/
def lines : List Line := [
  -- round 1
  ⟨.FF, .a, .b, .c, .d, 0, 7, 0xd76aa478⟩,
  ⟨.FF, .d, .a, .b, .c, 1, 12, 0xe8c7b756⟩,
  ⟨.FF, .c, .d, .a, .b, 2, 17, 0x242070db⟩,
  ⟨.FF, .b, .c, .d, .a, 3, 22, 0xc1bdceee⟩,
  ⟨.FF, .a, .b, .c, .d, 4, 7, 0xf57c0faf⟩,
  ⟨.FF, .d, .a, .b, .c, 5, 12, 0x4787c62a⟩,
  ⟨.FF, .c, .d, .a, .b, 6, 17, 0xa8304613⟩,
  ⟨.FF, .b, .c, .d, .a, 7, 22, 0xfd469501⟩,
  ⟨.FF, .a, .b, .c, .d, 8, 7, 0x698098d8⟩,
  ⟨.FF, .d, .a, .b, .c, 9, 12, 0x8b44f7af⟩,
  ⟨.FF, .c, .d, .a, .b, 10, 17, 0xffff5bb1⟩,
  ⟨.FF, .b, .c, .d, .a, 11, 22, 0x895cd7be⟩,
  ⟨.FF, .a, .b, .c, .d, 12, 7, 0x6b901122⟩,
  ⟨.FF, .d, .a, .b, .c, 13, 12, 0xfd987193⟩,
  ⟨.FF, .c, .d, .a, .b, 14, 17, 0xa679438e⟩,
  ⟨.FF, .b, .c, .d, .a, 15, 22, 0x49b40821⟩,
  -- round 2
  ⟨.GG, .a, .b, .c, .d, 1, 5, 0xf61e2562⟩,
  ⟨.GG, .d, .a, .b, .c, 6, 9, 0xc040b340⟩,
  ⟨.GG, .c, .d, .a, .b, 11, 14, 0x265e5a51⟩,
  ⟨.GG, .b, .c, .d, .a, 0, 20, 0xe9b6c7aa⟩,
  ⟨.GG, .a, .b, .c, .d, 5, 5, 0xd62f105d⟩,
  ⟨.GG, .d, .a, .b, .c, 10, 9, 0x2441453⟩,
  ⟨.GG, .c, .d, .a, .b, 15, 14, 0xd8a1e681⟩,
  ⟨.GG, .b, .c, .d, .a, 4, 20, 0xe7d3fbc8⟩,
  ⟨.GG, .a, .b, .c, .d, 9, 5, 0x21e1cde6⟩,
  ⟨.GG, .d, .a, .b, .c, 14, 9, 0xc33707d6⟩,
  ⟨.GG, .c, .d, .a, .b, 3, 14, 0xf4d50d87⟩,
  ⟨.GG, .b, .c, .d, .a, 8, 20, 0x455a14ed⟩,
  ⟨.GG, .a, .b, .c, .d, 13, 5, 0xa9e3e905⟩,
  ⟨.GG, .d, .a, .b, .c, 2, 9, 0xfcefa3f8⟩,
  ⟨.GG, .c, .d, .a, .b, 7, 14, 0x676f02d9⟩,
  ⟨.GG, .b, .c, .d, .a, 12, 20, 0x8d2a4c8a⟩,
  -- round 3
  ⟨.HH, .a, .b, .c, .d, 5, 4, 0xfffa3942⟩,
  ⟨.HH, .d, .a, .b, .c, 8, 11, 0x8771f681⟩,
  ⟨.HH, .c, .d, .a, .b, 11, 16, 0x6d9d6122⟩,
  ⟨.HH, .b, .c, .d, .a, 14, 23, 0xfde5380c⟩,
  ⟨.HH, .a, .b, .c, .d, 1, 4, 0xa4beea44⟩,
  ⟨.HH, .d, .a, .b, .c, 4, 11, 0x4bdecfa9⟩,
  ⟨.HH, .c, .d, .a, .b, 7, 16, 0xf6bb4b60⟩,
  ⟨.HH, .b, .c, .d, .a, 10, 23, 0xbebfbc70⟩,
  ⟨.HH, .a, .b, .c, .d, 13, 4, 0x289b7ec6⟩,
  ⟨.HH, .d, .a, .b, .c, 0, 11, 0xeaa127fa⟩,
  ⟨.HH, .c, .d, .a, .b, 3, 16, 0xd4ef3085⟩,
  ⟨.HH, .b, .c, .d, .a, 6, 23, 0x4881d05⟩,
  ⟨.HH, .a, .b, .c, .d, 9, 4, 0xd9d4d039⟩,
  ⟨.HH, .d, .a, .b, .c, 12, 11, 0xe6db99e5⟩,
  ⟨.HH, .c, .d, .a, .b, 15, 16, 0x1fa27cf8⟩,
  ⟨.HH, .b, .c, .d, .a, 2, 23, 0xc4ac5665⟩,
  -- round 4
  ⟨.II, .a, .b, .c, .d, 0, 6, 0xf4292244⟩,
  ⟨.II, .d, .a, .b, .c, 7, 10, 0x432aff97⟩,
  ⟨.II, .c, .d, .a, .b, 14, 15, 0xab9423a7⟩,
  ⟨.II, .b, .c, .d, .a, 5, 21, 0xfc93a039⟩,
  ⟨.II, .a, .b, .c, .d, 12, 6, 0x655b59c3⟩,
  ⟨.II, .d, .a, .b, .c, 3, 10, 0x8f0ccc92⟩,
  ⟨.II, .c, .d, .a, .b, 10, 15, 0xffeff47d⟩,
  ⟨.II, .b, .c, .d, .a, 1, 21, 0x85845dd1⟩,
  ⟨.II, .a, .b, .c, .d, 8, 6, 0x6fa87e4f⟩,
  ⟨.II, .d, .a, .b, .c, 15, 10, 0xfe2ce6e0⟩,
  ⟨.II, .c, .d, .a, .b, 6, 15, 0xa3014314⟩,
  ⟨.II, .b, .c, .d, .a, 13, 21, 0x4e0811a1⟩,
  ⟨.II, .a, .b, .c, .d, 4, 6, 0xf7537e82⟩,
  ⟨.II, .d, .a, .b, .c, 11, 10, 0xbd3af235⟩,
  ⟨.II, .c, .d, .a, .b, 2, 15, 0x2ad7d2bb⟩,
  ⟨.II, .b, .c, .d, .a, 9, 21, 0xeb86d391⟩]

/-- `osip_Decode` (src/osipparser2/osip_md5c.c:302-309) of `4 * n` bytes. -/
def decode : Nat → List Byte → Option (List Word)
  | 0, _ => some []
  | n + 1, b0 :: b1 :: b2 :: b3 :: t => do
    let w := b0.setWidth 32 ||| (b1.setWidth 32 <<< 8) ||| (b2.setWidth 32 <<< 16) ||| (b3.setWidth 32 <<< 24)
    let ws ← decode n t
    return w :: ws
  | _ + 1, _ => none

/-- `osip_Encode` (src/osipparser2/osip_md5c.c:286-297). -/
def encode (ws : List Word) : List Byte :=
  ws.flatMap fun w => [(w &&& 0xff#32).setWidth 8, ((w >>> 8) &&& 0xff#32).setWidth 8, ((w >>> 16) &&& 0xff#32).setWidth 8,
    ((w >>> 24) &&& 0xff#32).setWidth 8]

/-- `osip_MD5Transform` (src/osipparser2/osip_md5c.c:194-281). -/
def transform (state : State) (block : List Byte) : Option State := do
  let x ← decode 16 block
  let v ← lines.foldlM (Line.run x) state
  return ⟨state.a + v.a, state.b + v.b, state.c + v.c, state.d + v.d⟩

/-- `osip_MD5Init` (src/osipparser2/osip_md5c.c:108-119); `buffer` is what is in the 64 bytes before. -/
def init (buffer : List Byte) : Ctx :=
  { state := ⟨0x67452301, 0xefcdab89, 0x98badcfe, 0x10325476⟩, count0 := 0, count1 := 0, buffer }

/-- `osip_MD5_memcpy (&dst[i], src, n)` (src/osipparser2/osip_md5c.c:314-321). -/
def memcpy (dst : List Byte) (i : Nat) (src : List Byte) (n : Nat) : Option (List Byte) :=
  if i + n ≤ dst.length ∧ n ≤ src.length then some (dst.take i ++ src.take n ++ dst.drop (i + n)) else none

/-- The loop of `osip_MD5Update` (src/osipparser2/osip_md5c.c:149-150); the sum wraps around. -/
def updateLoop (input : List Byte) : Nat → State → Nat → Option (State × Nat)
  | 0, _, _ => none
  | fuel + 1, st, i =>
    if (i + 63) % 2^32 < input.length then do
      let st ← transform st (input.drop i)
      updateLoop input fuel st ((i + 64) % 2^32)
    else some (st, i)

/-- `osip_MD5Update (context, input, inputLen)` (src/osipparser2/osip_md5c.c:125-159) for an input of `inputLen` bytes. -/
def update (ctx : Ctx) (input : List Byte) : Option Ctx := do
  let inputLen : Word := BitVec.ofNat 32 input.length
  let index := ((ctx.count0 >>> 3) &&& 0x3F#32).toNat
  let count0 := ctx.count0 + (inputLen <<< 3)
  let count1 := if count0 < inputLen <<< 3 then ctx.count1 + 1 else ctx.count1
  let count1 := count1 + (inputLen >>> 29)
  let partLen := 64 - index
  let ctx := { ctx with count0, count1 }
  if input.length ≥ partLen then
    let buffer ← memcpy ctx.buffer index input partLen
    let st ← transform ctx.state buffer
    let (st, i) ← updateLoop input (input.length + 1) st partLen
    let buffer ← memcpy buffer 0 (input.drop i) (input.length - i)
    return { ctx with state := st, buffer }
  else
    let buffer ← memcpy ctx.buffer index input input.length
    return { ctx with buffer }

/-- `PADDING` (src/osipparser2/osip_md5c.c:65-69). -/
def PADDING : List Byte := 0x80#8 :: List.replicate 63 0#8

/-- `osip_MD5Final` (src/osipparser2/osip_md5c.c:164-190): the digest. -/
def final (ctx : Ctx) : Option (List Byte) := do
  let bits := encode [ctx.count0, ctx.count1]
  let index := ((ctx.count0 >>> 3) &&& 0x3f#32).toNat
  let padLen := if index < 56 then 56 - index else 120 - index
  let ctx ← update ctx (PADDING.take padLen)
  let ctx ← update ctx bits
  return encode [ctx.state.a, ctx.state.b, ctx.state.c, ctx.state.d]

end Osip.Md5
