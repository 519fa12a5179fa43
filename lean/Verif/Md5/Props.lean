import Verif.Md5.Model

/-!
# C58: the digest is the one of RFC 1321, however the data are cut
-/

set_option autoImplicit false

namespace Osip.Md5

/-! ## Specification: RFC 1321 -/

/-- Four bytes as a word, low-order byte first. -/
def word (b0 b1 b2 b3 : Byte) : Word := b3 ++ b2 ++ b1 ++ b0

/-- The words in a sequence of bytes. -/
def words : List Byte → List Word
  | b0 :: b1 :: b2 :: b3 :: t => word b0 b1 b2 b3 :: words t
  | _ => []

/-- The bytes of a word, low-order byte first. -/
def bytes (w : Word) : List Byte := [w.extractLsb' 0 8, w.extractLsb' 8 8, w.extractLsb' 16 8, w.extractLsb' 24 8]

/-- The table of section 3.4: the integer part of 4294967296 times abs (sin (i)), for `i` from 1 on. -/
def T : List Word := [
  0xd76aa478, 0xe8c7b756, 0x242070db, 0xc1bdceee, 0xf57c0faf, 0x4787c62a, 0xa8304613, 0xfd469501,
  0x698098d8, 0x8b44f7af, 0xffff5bb1, 0x895cd7be, 0x6b901122, 0xfd987193, 0xa679438e, 0x49b40821,
  0xf61e2562, 0xc040b340, 0x265e5a51, 0xe9b6c7aa, 0xd62f105d, 0x02441453, 0xd8a1e681, 0xe7d3fbc8,
  0x21e1cde6, 0xc33707d6, 0xf4d50d87, 0x455a14ed, 0xa9e3e905, 0xfcefa3f8, 0x676f02d9, 0x8d2a4c8a,
  0xfffa3942, 0x8771f681, 0x6d9d6122, 0xfde5380c, 0xa4beea44, 0x4bdecfa9, 0xf6bb4b60, 0xbebfbc70,
  0x289b7ec6, 0xeaa127fa, 0xd4ef3085, 0x04881d05, 0xd9d4d039, 0xe6db99e5, 0x1fa27cf8, 0xc4ac5665,
  0xf4292244, 0x432aff97, 0xab9423a7, 0xfc93a039, 0x655b59c3, 0x8f0ccc92, 0xffeff47d, 0x85845dd1,
  0x6fa87e4f, 0xfe2ce6e0, 0xa3014314, 0x4e0811a1, 0xf7537e82, 0xbd3af235, 0x2ad7d2bb, 0xeb86d391]

/-- The auxiliary functions of section 3.4. -/
def aux (round : Nat) (x y z : Word) : Word :=
  match round with
  | 0 => (x &&& y) ||| (~~~x &&& z)
  | 1 => (x &&& z) ||| (y &&& ~~~z)
  | 2 => x ^^^ y ^^^ z
  | _ => y ^^^ (x ||| ~~~z)

/-- The amounts of the rotations. -/
def shift (i : Nat) : Nat :=
  (([[7, 12, 17, 22], [5, 9, 14, 20], [4, 11, 16, 23], [6, 10, 15, 21]] : List (List Nat))[i / 16]?.getD [])[i % 4]?.getD 0

/-- The word used in step `i`. -/
def wordIndex (i : Nat) : Nat :=
  match i / 16 with
  | 0 => i
  | 1 => (5 * i + 1) % 16
  | 2 => (3 * i + 5) % 16
  | _ => (7 * i) % 16

/-- Step `i` of section 3.4: `a = b + ((a + f (b, c, d) + X[k] + T[i]) <<< s)`, then the names move on. -/
def step (x : List Word) (v : Word × Word × Word × Word) (i : Nat) : Word × Word × Word × Word :=
  let (a, b, c, d) := v
  (d, b + (a + aux (i / 16) b c d + x[wordIndex i]?.getD 0 + T[i]?.getD 0).rotateLeft (shift i), b, c)

/-- A block of 64 bytes. -/
def compress (s : State) (block : List Byte) : State :=
  let (a, b, c, d) := (List.range 64).foldl (step (words block)) (s.a, s.b, s.c, s.d)
  ⟨s.a + a, s.b + b, s.c + c, s.d + d⟩

/-- All full blocks. -/
def digestBlocks (s : State) (p : List Byte) : State :=
  if _h : p.length < 64 then s else digestBlocks (compress s (p.take 64)) (p.drop 64)
termination_by p.length
decreasing_by simp; omega

/-- Sections 3.1 and 3.2: a bit 1, bits 0 up to 56 bytes modulo 64, the number of bits modulo 2^64. -/
def pad (msg : List Byte) : List Byte :=
  msg ++ 0x80#8 :: List.replicate ((119 - msg.length % 64) % 64) 0#8 ++
    bytes (BitVec.ofNat 32 (8 * msg.length)) ++ bytes (BitVec.ofNat 32 (8 * msg.length / 2^32))

/-- The initial values of section 3.3. -/
def start : State := ⟨word 0x01 0x23 0x45 0x67, word 0x89 0xab 0xcd 0xef, word 0xfe 0xdc 0xba 0x98, word 0x76 0x54 0x32 0x10⟩

/-- The digest of RFC 1321. -/
def md5 (msg : List Byte) : List Byte :=
  let s := digestBlocks start (pad msg)
  bytes s.a ++ bytes s.b ++ bytes s.c ++ bytes s.d

/-! ## Words -/

theorem word_eq (b0 b1 b2 b3 : Byte) :
    b0.setWidth 32 ||| (b1.setWidth 32 <<< 8) ||| (b2.setWidth 32 <<< 16) ||| (b3.setWidth 32 <<< 24) = word b0 b1 b2 b3 := by
  apply BitVec.eq_of_getLsbD_eq
  intro i hi
  unfold word
  simp only [BitVec.getLsbD_or, BitVec.getLsbD_setWidth, BitVec.getLsbD_shiftLeft, BitVec.getLsbD_append]
  have h8 : ∀ (b : Byte) j, 8 ≤ j → b.getLsbD j = false := fun b j h => BitVec.getLsbD_of_ge b j h
  by_cases h1 : i < 8
  · simp [h1, hi, show i < 16 by omega, show i < 24 by omega]
  · by_cases h2 : i < 16
    · simp [h1, h2, hi, show i < 24 by omega, h8 b0 i (by omega), show i - 8 < 32 by omega, show i - 8 < 8 by omega]
    · by_cases h3 : i < 24
      · simp [h1, h2, h3, hi, h8 b0 i (by omega), h8 b1 (i - 8) (by omega), show i - 16 < 32 by omega, show ¬ i - 8 < 8 by omega,
          show i - 8 - 8 = i - 16 by omega, show i - 16 < 8 by omega]
      · simp [h1, h2, h3, hi, h8 b0 i (by omega), h8 b1 (i - 8) (by omega), h8 b2 (i - 16) (by omega), show i - 24 < 32 by omega,
          show ¬ i - 8 < 8 by omega, show i - 8 - 8 = i - 16 by omega, show ¬ i - 16 < 8 by omega, show i - 16 - 8 = i - 24 by omega]

theorem encode_eq (w : Word) : encode [w] = bytes w := by
  have : ∀ k, k + 8 ≤ 32 → ((w >>> k) &&& 0xff#32).setWidth 8 = w.extractLsb' k 8 := by
    intro k hk
    apply BitVec.eq_of_getLsbD_eq
    intro i hi
    have hm : (0xff#32).getLsbD i = true := by
      have : ∀ i : Fin 8, (0xff#32).getLsbD i = true := by decide
      exact this ⟨i, hi⟩
    simp only [BitVec.getLsbD_setWidth, BitVec.getLsbD_and, BitVec.getLsbD_ushiftRight, BitVec.getLsbD_extractLsb', hi, hm,
      decide_true, Bool.true_and, Bool.and_true]
  have h0 := this 0 (by omega)
  simp only [BitVec.ushiftRight_zero] at h0
  simp only [encode, List.flatMap_cons, List.flatMap_nil, List.append_nil, bytes]
  rw [h0, this 8 (by omega), this 16 (by omega), this 24 (by omega)]

theorem encode_cons (w : Word) (ws : List Word) : encode (w :: ws) = bytes w ++ encode ws := by
  have := encode_eq w
  simp only [encode, List.flatMap_cons, List.flatMap_nil, List.append_nil] at this ⊢
  rw [this]

theorem decode_eq (n : Nat) (b : List Byte) (h : 4 * n ≤ b.length) : decode n b = some (words (b.take (4 * n))) := by
  induction n generalizing b with
  | zero => simp [decode, words]
  | succ n ih =>
    match b, h with
    | b0 :: b1 :: b2 :: b3 :: t, h =>
      simp only [List.length_cons] at h
      rw [decode, ih t (by omega), show 4 * (n + 1) = 4 * n + 4 by omega]
      simp only [List.take_succ_cons, words, word_eq]
      rfl
    | [_, _, _], h => simp at h; omega
    | [_, _], h => simp at h; omega
    | [_], h => simp at h; omega
    | [], h => simp at h

theorem words_length (n : Nat) (b : List Byte) (h : b.length = 4 * n) : (words b).length = n := by
  induction n generalizing b with
  | zero => have : b = [] := List.length_eq_zero_iff.1 (by omega); subst this; rfl
  | succ n ih =>
    match b, h with
    | b0 :: b1 :: b2 :: b3 :: t, h =>
      simp only [List.length_cons] at h
      simp [words, ih t (by omega)]
    | [_, _, _], h => simp at h; omega
    | [_, _], h => simp at h; omega
    | [_], h => simp at h; omega
    | [], h => simp at h

/-! ## Blocks -/

/-- The line for step `i`. -/
def specLine (i : Nat) : Line :=
  let m : Macro := match i / 16 with | 0 => .FF | 1 => .GG | 2 => .HH | _ => .II
  match i % 4 with
  | 0 => ⟨m, .a, .b, .c, .d, wordIndex i, shift i, T[i]?.getD 0⟩
  | 1 => ⟨m, .d, .a, .b, .c, wordIndex i, shift i, T[i]?.getD 0⟩
  | 2 => ⟨m, .c, .d, .a, .b, wordIndex i, shift i, T[i]?.getD 0⟩
  | _ => ⟨m, .b, .c, .d, .a, wordIndex i, shift i, T[i]?.getD 0⟩

theorem lines_eq : lines = (List.range 64).map specLine := by decide +kernel

/-- The values in the order of the next step. -/
def view (i : Nat) (s : State) : Word × Word × Word × Word :=
  match i % 4 with
  | 0 => (s.a, s.b, s.c, s.d)
  | 1 => (s.d, s.a, s.b, s.c)
  | 2 => (s.c, s.d, s.a, s.b)
  | _ => (s.b, s.c, s.d, s.a)

theorem rotate_eq (x : Word) {n : Nat} (h : n < 32) : rotateLeft x n = x.rotateLeft n := by
  rw [rotateLeft, BitVec.rotateLeft_def, Nat.mod_eq_of_lt h]

theorem small_tables : ∀ i : Fin 64, wordIndex i < 16 ∧ shift i < 32 := by decide

theorem fn_eq (i : Nat) (hi : i < 64) (x y z : Word) :
    Macro.fn (match i / 16 with | 0 => Macro.FF | 1 => .GG | 2 => .HH | _ => .II) x y z = aux (i / 16) x y z := by
  have : i / 16 < 4 := by omega
  match i / 16, this with
  | 0, _ => rfl
  | 1, _ => rfl
  | 2, _ => rfl
  | 3, _ => rfl

theorem step_eq {x : List Word} (hx : x.length = 16) (i : Nat) (hi : i < 64) (s : State) :
    ∃ s', Line.run x s (specLine i) = some s' ∧ view (i + 1) s' = step x (view i s) i := by
  obtain ⟨h1, h2⟩ := small_tables ⟨i, hi⟩
  simp only at h1 h2
  obtain ⟨w, hg⟩ : ∃ w, x[wordIndex i]? = some w := ⟨_, List.getElem?_eq_getElem (by omega)⟩
  have ha : ∀ a f b t : Word, a + (f + b + t) = a + f + b + t := by intros; simp only [BitVec.add_assoc]
  have h4 : i % 4 < 4 := by omega
  unfold specLine view step
  have hm : i % 4 = 0 ∧ (i + 1) % 4 = 1 ∨ i % 4 = 1 ∧ (i + 1) % 4 = 2 ∨ i % 4 = 2 ∧ (i + 1) % 4 = 3 ∨ i % 4 = 3 ∧ (i + 1) % 4 = 0 := by omega
  rcases hm with ⟨e1, e2⟩ | ⟨e1, e2⟩ | ⟨e1, e2⟩ | ⟨e1, e2⟩ <;>
  · simp only [e1, e2, Line.run]
    rw [hg]
    refine ⟨_, rfl, ?_⟩
    simp only [State.get, State.set, fn_eq i hi, rotate_eq _ h2, ha, Option.getD_some]
    rw [BitVec.add_comm (BitVec.rotateLeft _ _)]

theorem fold_eq {x : List Word} (hx : x.length = 16) (s : State) (n : Nat) (hn : n ≤ 64) :
    ∃ s', ((List.range n).map specLine).foldlM (Line.run x) s = some s' ∧
      view n s' = (List.range n).foldl (step x) (view 0 s) := by
  induction n with
  | zero => exact ⟨s, rfl, rfl⟩
  | succ n ih =>
    obtain ⟨s1, h1, h2⟩ := ih (by omega)
    obtain ⟨s2, h3, h4⟩ := step_eq hx n (by omega) s1
    refine ⟨s2, ?_, ?_⟩
    · rw [List.range_succ, List.map_append, List.foldlM_append, h1]
      simp [h3]
    · rw [List.range_succ, List.foldl_append, ← h2, h4]; rfl

theorem transform_eq (s : State) (block : List Byte) (h : 64 ≤ block.length) :
    transform s block = some (compress s (block.take 64)) := by
  unfold transform
  rw [decode_eq 16 block (by omega)]
  have hx := words_length 16 (block.take 64) (by simp; omega)
  obtain ⟨s', h1, h2⟩ := fold_eq hx s 64 (by omega)
  simp only [Option.bind_eq_bind, Option.bind_some, lines_eq]
  rw [h1]
  simp only [Option.bind_some, compress]
  have h3 : (s'.a, s'.b, s'.c, s'.d) = view 64 s' := rfl
  have h4 : (s.a, s.b, s.c, s.d) = view 0 s := rfl
  rw [h4, ← h2, ← h3]
  rfl

/-! ## The full blocks of a message -/

theorem digestBlocks_short (s : State) (p : List Byte) (h : p.length < 64) : digestBlocks s p = s := by
  rw [digestBlocks]; simp [h]

theorem digestBlocks_block (s : State) (b p : List Byte) (h : b.length = 64) : digestBlocks s (b ++ p) = digestBlocks (compress s b) p := by
  rw [digestBlocks]
  rw [dif_neg (by simp; omega), List.take_left' h, List.drop_left' h]

theorem digestBlocks_append (n : Nat) (s : State) (a p : List Byte) (h : a.length = 64 * n) :
    digestBlocks s (a ++ p) = digestBlocks (digestBlocks s a) p := by
  induction n generalizing s a with
  | zero =>
    have : a = [] := List.length_eq_zero_iff.1 (by omega)
    subst this
    rw [digestBlocks_short s [] (by simp)]; rfl
  | succ n ih =>
    have e : a = a.take 64 ++ a.drop 64 := (List.take_append_drop 64 a).symm
    have hl : (a.take 64).length = 64 := by simp; omega
    rw [e, List.append_assoc, digestBlocks_block _ _ _ hl, digestBlocks_block _ _ _ hl, ih _ _ (by simp; omega)]

/-- The loop over the full blocks of the input. -/
theorem updateLoop_eq (input : List Byte) (fuel : Nat) (s : State) (i : Nat) (hlen : input.length + 63 < 2^32) (hi : i ≤ input.length)
    (hf : input.length - i < fuel) :
    ∃ n, updateLoop input fuel s i = some (digestBlocks s (input.drop i), i + 64 * n) ∧ i + 64 * n ≤ input.length ∧
      input.length - (i + 64 * n) < 64 := by
  induction fuel generalizing s i with
  | zero => omega
  | succ fuel ih =>
    rw [updateLoop]
    have hm : (i + 63) % 2^32 = i + 63 := Nat.mod_eq_of_lt (by omega)
    by_cases h : i + 63 < input.length
    · have ht := transform_eq s (input.drop i) (by simp; omega)
      obtain ⟨n, h1, h2, h3⟩ := ih (compress s ((input.drop i).take 64)) (i + 64) (by omega) (by omega)
      refine ⟨n + 1, ?_, by omega, by omega⟩
      have hm2 : (i + 64) % 2^32 = i + 64 := Nat.mod_eq_of_lt (by omega)
      simp only [hm, h, ht, hm2, if_true, Option.bind_eq_bind, Option.bind_some]
      rw [h1, show i + 64 + 64 * n = i + 64 * (n + 1) by omega]
      congr 2
      have e : input.drop i = (input.drop i).take 64 ++ input.drop (i + 64) := by
        rw [← List.drop_drop, List.take_append_drop]
      conv => rhs; rw [e, digestBlocks_block _ _ _ (by simp; omega)]
    · refine ⟨0, ?_, by omega, by omega⟩
      simp only [hm, h, if_false]
      rw [digestBlocks_short _ _ (by simp; omega)]
      rfl

/-! ## The context while data come in -/

/-- The context has taken in exactly `msg`. -/
structure Holds (ctx : Ctx) (msg : List Byte) : Prop where
  parts : ∃ n full tail junk, msg = full ++ tail ∧ full.length = 64 * n ∧ tail.length < 64 ∧ ctx.state = digestBlocks start full ∧
    ctx.buffer = tail ++ junk
  size : ctx.buffer.length = 64
  low : ctx.count0.toNat = 8 * msg.length % 2^32
  high : ctx.count1.toNat = 8 * msg.length / 2^32 % 2^32

theorem index_eq (w : Word) (n : Nat) (h : w.toNat = 8 * n % 2^32) : ((w >>> 3) &&& 0x3F#32).toNat = n % 64 := by
  have : (0x3F#32).toNat = 2^6 - 1 := by decide
  rw [BitVec.toNat_and, this, Nat.and_two_pow_sub_one_eq_mod, BitVec.toNat_ushiftRight, Nat.shiftRight_eq_div_pow, h]
  omega

theorem init_holds (buffer : List Byte) (h : buffer.length = 64) : Holds (init buffer) [] :=
  ⟨⟨0, [], [], buffer, rfl, rfl, by simp, by rw [digestBlocks_short _ _ (by simp)]; exact (by decide : (init []).state = start), rfl⟩, h, by simp [init], by simp [init]⟩

theorem low_eq (c : Word) (n l : Nat) (h : c.toNat = 8 * n % 2^32) (_hl : l < 2^32) :
    (c + (BitVec.ofNat 32 l <<< 3)).toNat = 8 * (n + l) % 2^32 := by
  simp only [BitVec.toNat_add, BitVec.toNat_shiftLeft, BitVec.toNat_ofNat, Nat.shiftLeft_eq, h]
  omega

theorem high_eq (c0 c1 : Word) (n l : Nat) (h0 : c0.toNat = 8 * n % 2^32) (h1 : c1.toNat = 8 * n / 2^32 % 2^32) (hl : l < 2^32) :
    ((if c0 + (BitVec.ofNat 32 l <<< 3) < BitVec.ofNat 32 l <<< 3 then c1 + 1 else c1) + (BitVec.ofNat 32 l >>> 29)).toNat =
      8 * (n + l) / 2^32 % 2^32 := by
  have h3 := low_eq c0 n l h0 hl
  have h4 : (BitVec.ofNat 32 l <<< 3).toNat = 8 * l % 2^32 := by
    simp only [BitVec.toNat_shiftLeft, BitVec.toNat_ofNat, Nat.shiftLeft_eq]; omega
  have h5 : (BitVec.ofNat 32 l >>> 29).toNat = l / 2^29 := by
    simp only [BitVec.toNat_ushiftRight, BitVec.toNat_ofNat, Nat.shiftRight_eq_div_pow]; omega
  have h6 : (1 : Word).toNat = 1 := by decide
  split
  · rename_i h
    rw [BitVec.lt_def, h3, h4] at h
    rw [BitVec.toNat_add, BitVec.toNat_add, h5, h1, h6]
    omega
  · rename_i h
    rw [BitVec.lt_def, h3, h4] at h
    rw [BitVec.toNat_add, h5, h1]
    omega

theorem memcpy_eq (d1 d2 d3 src : List Byte) (h : d2.length ≤ src.length) :
    memcpy (d1 ++ (d2 ++ d3)) d1.length src d2.length = some (d1 ++ src.take d2.length ++ d3) := by
  unfold memcpy
  rw [if_pos ⟨by simp, h⟩, List.take_left' rfl, ← List.append_assoc d1, List.drop_left' (by simp)]

/-- A part of the data is taken in, whatever came before. -/
theorem update_holds {ctx : Ctx} {msg : List Byte} (h : Holds ctx msg) (input : List Byte) (hl : input.length + 63 < 2^32) :
    ∃ ctx', update ctx input = some ctx' ∧ Holds ctx' (msg ++ input) := by
  obtain ⟨⟨n, full, tail, junk, rfl, hf, ht, hs, hb⟩, hz, h0, h1⟩ := h
  have hix := index_eq ctx.count0 _ h0
  have hidx : (full ++ tail).length % 64 = tail.length := by simp [hf]; omega
  rw [hidx] at hix
  have hlow := low_eq ctx.count0 _ input.length h0 (by omega)
  have hhigh := high_eq ctx.count0 ctx.count1 _ input.length h0 h1 (by omega)
  rw [hb, List.length_append] at hz
  unfold update
  simp only [hix, Option.bind_eq_bind, hb]
  by_cases hc : input.length ≥ 64 - tail.length
  · rw [if_pos hc]
    have hj : 64 - tail.length = junk.length := by omega
    have hm := memcpy_eq tail junk [] input (by omega)
    rw [List.append_nil, List.append_nil] at hm
    rw [hj, hm, Option.bind_some, transform_eq _ _ (by simp; omega), Option.bind_some]
    obtain ⟨k, hk, hk2, hk3⟩ := updateLoop_eq input (input.length + 1) (compress ctx.state ((tail ++ input.take junk.length).take 64))
      junk.length hl (by omega) (by omega)
    rw [hk, Option.bind_some]
    have hbl : (tail ++ input.take junk.length).length = 64 := by simp; omega
    generalize hB : tail ++ input.take junk.length = B at *
    generalize hi : junk.length + 64 * k = i at *
    have hm2 := memcpy_eq [] (B.take (input.length - i)) (B.drop (input.length - i)) (input.drop i) (by simp; omega)
    have hl2 : (B.take (input.length - i)).length = input.length - i := by simp; omega
    simp only [List.nil_append, List.length_nil, List.take_append_drop, hl2] at hm2
    rw [List.take_of_length_le (show (input.drop i).length ≤ input.length - i by simp)] at hm2
    simp only [hm2, Option.bind_some]
    refine ⟨_, rfl, ⟨n + 1 + k, full ++ tail ++ input.take i, input.drop i, B.drop (input.length - i), ?_, ?_, ?_, ?_, rfl⟩, ?_, ?_, ?_⟩
    · simp [List.append_assoc]
    · simp [hf]; omega
    · simp; omega
    · have e1 : full ++ tail ++ input.take i = full ++ (B ++ (input.drop junk.length).take (64 * k)) := by
        rw [← hB, ← hi, List.take_add]; simp [List.append_assoc]
      have e2 : input.drop junk.length = (input.drop junk.length).take (64 * k) ++ (input.drop junk.length).drop (64 * k) :=
        (List.take_append_drop _ _).symm
      rw [e1, digestBlocks_append n _ _ _ hf, ← hs, digestBlocks_block _ _ _ hbl, List.take_of_length_le (by omega)]
      rw [e2, digestBlocks_append k _ _ _ (by simp; omega), digestBlocks_short _ (List.drop _ _) (by simp; omega)]
      rw [← e2]
    · simp; omega
    · rw [hlow, List.length_append (as := full ++ tail)]
    · rw [hhigh, List.length_append (as := full ++ tail)]
  · rw [if_neg hc]
    have e : junk = junk.take input.length ++ junk.drop input.length := (List.take_append_drop _ _).symm
    have hjl : (junk.take input.length).length = input.length := by simp; omega
    have hm := memcpy_eq tail (junk.take input.length) (junk.drop input.length) input (by omega)
    rw [← e, hjl, List.take_length] at hm
    rw [hm, Option.bind_some]
    refine ⟨_, rfl, ⟨n, full, tail ++ input, junk.drop input.length, ?_, hf, ?_, hs, rfl⟩, ?_, ?_, ?_⟩
    · simp
    · simp; omega
    · simp; omega
    · rw [hlow, List.length_append (as := full ++ tail)]
    · rw [hhigh, List.length_append (as := full ++ tail)]

theorem bytes_length (w : Word) : (bytes w).length = 4 := rfl

/-- The digest of what was taken in. -/
theorem final_eq {ctx : Ctx} {msg : List Byte} (h : Holds ctx msg) : final ctx = some (md5 msg) := by
  have hix := index_eq ctx.count0 _ h.low
  unfold final
  simp only [Option.bind_eq_bind, hix]
  have hp : (if msg.length % 64 < 56 then 56 - msg.length % 64 else 120 - msg.length % 64) = (119 - msg.length % 64) % 64 + 1 := by
    split <;> omega
  rw [hp]
  have hpad : PADDING.take ((119 - msg.length % 64) % 64 + 1) = 0x80#8 :: List.replicate ((119 - msg.length % 64) % 64) 0#8 := by
    unfold PADDING
    rw [List.take_succ_cons, List.take_replicate, Nat.min_eq_left (by omega)]
  rw [hpad]
  obtain ⟨c1, hc1, hh1⟩ := update_holds h (0x80#8 :: List.replicate ((119 - msg.length % 64) % 64) 0#8) (by simp; omega)
  rw [hc1, Option.bind_some]
  have hbits : encode [ctx.count0, ctx.count1] =
      bytes (BitVec.ofNat 32 (8 * msg.length)) ++ bytes (BitVec.ofNat 32 (8 * msg.length / 2^32)) := by
    rw [encode_cons, encode_eq]
    congr 2
    · apply BitVec.eq_of_toNat_eq; rw [h.low, BitVec.toNat_ofNat]
    · apply BitVec.eq_of_toNat_eq; rw [h.high, BitVec.toNat_ofNat]
  rw [hbits]
  obtain ⟨c2, hc2, hh2⟩ := update_holds hh1
    (bytes (BitVec.ofNat 32 (8 * msg.length)) ++ bytes (BitVec.ofNat 32 (8 * msg.length / 2^32))) (by simp [bytes_length])
  rw [hc2, Option.bind_some]
  have hpe : msg ++ 0x80#8 :: List.replicate ((119 - msg.length % 64) % 64) 0#8 ++
      (bytes (BitVec.ofNat 32 (8 * msg.length)) ++ bytes (BitVec.ofNat 32 (8 * msg.length / 2^32))) = pad msg := by
    unfold pad; simp [List.append_assoc]
  rw [hpe] at hh2
  obtain ⟨⟨n, full, tail, junk, he, hf, ht, hs, -⟩, -, -, -⟩ := hh2
  have hst : c2.state = digestBlocks start (pad msg) := by
    rw [he, digestBlocks_append n _ _ _ hf, digestBlocks_short _ tail ht, hs]
  rw [hst]
  rw [encode_cons, encode_cons, encode_cons, encode_eq]
  simp only [md5, List.append_assoc]
  rfl

/-! ## The properties -/

/-- Calls of `osip_MD5Update` in a row. -/
def updates (ctx : Ctx) : List (List Byte) → Option Ctx
  | [] => some ctx
  | p :: ps => (update ctx p).bind fun ctx => updates ctx ps

theorem updates_holds {ctx : Ctx} {msg : List Byte} (h : Holds ctx msg) (ps : List (List Byte)) (hl : ∀ p ∈ ps, p.length + 63 < 2^32) :
    ∃ ctx', updates ctx ps = some ctx' ∧ Holds ctx' (msg ++ ps.flatten) := by
  induction ps generalizing ctx msg with
  | nil => exact ⟨ctx, rfl, by simpa using h⟩
  | cons p ps ih =>
    obtain ⟨c1, h1, h2⟩ := update_holds h p (hl p (by simp))
    obtain ⟨c2, h3, h4⟩ := ih h2 (fun q hq => hl q (by simp [hq]))
    exact ⟨c2, by rw [updates, h1, Option.bind_some, h3], by simpa using h4⟩

/-- C76: the digest is the one RFC 1321 defines, for all data and all ways to hand them over in parts. -/
theorem c76_md5_is_rfc1321 (buffer : List Byte) (hb : buffer.length = 64) (ps : List (List Byte)) (hl : ∀ p ∈ ps, p.length + 63 < 2^32) :
    (updates (init buffer) ps).bind final = some (md5 ps.flatten) := by
  obtain ⟨c, h1, h2⟩ := updates_holds (init_holds buffer hb) ps hl
  rw [h1, Option.bind_some, final_eq h2]; rfl

/-- C58: two ways to cut the same data into parts give the same digest. -/
theorem c58_chunks (buffer buffer' : List Byte) (hb : buffer.length = 64) (hb' : buffer'.length = 64) (ps qs : List (List Byte))
    (hp : ∀ p ∈ ps, p.length + 63 < 2^32) (hq : ∀ q ∈ qs, q.length + 63 < 2^32) (h : ps.flatten = qs.flatten) :
    ∃ d, (updates (init buffer) ps).bind final = some d ∧ (updates (init buffer') qs).bind final = some d ∧ d.length = 16 := by
  refine ⟨_, c76_md5_is_rfc1321 buffer hb ps hp, ?_, ?_⟩
  · rw [c76_md5_is_rfc1321 buffer' hb' qs hq, h]
  · simp [md5, bytes_length]

/-- The test suite of RFC 1321: the digest of "abc" handed over as "a", "", "bc". -/
example : (updates (init (List.replicate 64 7#8)) [[0x61#8], [], [0x62#8, 0x63#8]]).bind final =
    some [0x90, 0x01, 0x50, 0x98, 0x3c, 0xd2, 0x4f, 0xb0, 0xd6, 0x96, 0x3f, 0x7d, 0x28, 0xe1, 0x7f, 0x72] := by decide +kernel

/-- The same for eighty characters in two parts, which fill two blocks. -/
example : (updates (init (List.replicate 64 0#8))
      [((List.replicate 8 "12345".toList).flatten.map fun c => BitVec.ofNat 8 c.toNat),
        ((List.replicate 8 "67890".toList).flatten.map fun c => BitVec.ofNat 8 c.toNat)]).bind final =
    some (md5 (((List.replicate 8 "12345".toList).flatten ++ (List.replicate 8 "67890".toList).flatten).map fun c => BitVec.ofNat 8 c.toNat)) := by
  decide +kernel

/-- The test suite of RFC 1321: the digest of no data at all. -/
example : md5 [] =
    [0xd4, 0x1d, 0x8c, 0xd9, 0x8f, 0x00, 0xb2, 0x04, 0xe9, 0x80, 0x09, 0x98, 0xec, 0xf8, 0x42, 0x7e] := by decide +kernel

end Osip.Md5
