import Verif.Parse.NoEolStr
import Verif.Parse.PropsRead

/-!
# No header line comes from inside another one
-/

set_option autoImplicit false

namespace Osip

/-! ## The lines of a text -/

/-- The first line of a text and what follows its line end, which is CR LF, CR or LF. -/
def cutLine : List Char → Str × List Char
  | [] => ([], [])
  | '\r' :: '\n' :: t => ([], t)
  | '\r' :: t => ([], t)
  | '\n' :: t => ([], t)
  | c :: t => (c :: (cutLine t).1, (cutLine t).2)

/-- At most `n` lines, up to the first empty one. -/
def upToBlank : Nat → List Char → List Str
  | 0, _ => []
  | n + 1, t => if (cutLine t).1 = [] then [] else (cutLine t).1 :: upToBlank n (cutLine t).2

/-- The lines before the first empty line, as any recipient finds them. -/
def headLines (t : List Char) : List Str := upToBlank t.length t

example : headLines "a: b\r\nc: d\ne: f\rg\r\n\r\nx: y\r\n".toList = ["a: b".toList, "c: d".toList, "e: f".toList, "g".toList] := by decide +kernel

theorem cut_plain {c : Char} (h : c ≠ '\r' ∧ c ≠ '\n') (t : List Char) : cutLine (c :: t) = (c :: (cutLine t).1, (cutLine t).2) := by
  rw [cutLine.eq_def]
  split
  · simp_all
  · simp_all
  · simp_all
  · simp_all
  · simp_all

theorem cut_line {a : Str} (h : NoEol a) (t : List Char) : cutLine (a ++ '\r' :: '\n' :: t) = (a, t) := by
  induction a with
  | nil => rfl
  | cons c a ih =>
    rw [noEol_cons] at h
    rw [List.cons_append, cut_plain h.1, ih h.2]

/-- Lines with their line ends. -/
def crlfLines (ls : List Str) : List Char := ls.flatMap (· ++ ['\r', '\n'])

theorem upToBlank_join {ls : List Str} (h : ∀ l ∈ ls, NoEol l) (t : List Char) : ∀ n,
    (upToBlank n (crlfLines ls ++ '\r' :: '\n' :: t)).length ≤ ls.length := by
  induction ls with
  | nil => intro n; cases n <;> simp [upToBlank, crlfLines, cutLine]
  | cons l ls ih =>
    intro n
    cases n with
    | zero => simp [upToBlank]
    | succ n =>
      have e : crlfLines (l :: ls) ++ '\r' :: '\n' :: t = l ++ '\r' :: '\n' :: (crlfLines ls ++ '\r' :: '\n' :: t) := by simp [crlfLines]
      rw [e, upToBlank, cut_line (h l (by simp))]
      split
      · simp
      · simpa using ih (fun l hl => h l (by simp [hl])) n

theorem upToBlank_exact {ls : List Str} (h : ∀ l ∈ ls, NoEol l ∧ l ≠ []) (t : List Char) : ∀ n, ls.length < n →
    upToBlank n (crlfLines ls ++ '\r' :: '\n' :: t) = ls := by
  induction ls with
  | nil => intro n hn; cases n <;> simp [upToBlank, crlfLines, cutLine]
  | cons l ls ih =>
    intro n hn
    cases n with
    | zero => simp at hn
    | succ n =>
      have e : crlfLines (l :: ls) ++ '\r' :: '\n' :: t = l ++ '\r' :: '\n' :: (crlfLines ls ++ '\r' :: '\n' :: t) := by simp [crlfLines]
      obtain ⟨h1, h2⟩ := h l (by simp)
      rw [e, upToBlank, cut_line h1, if_neg h2]
      rw [ih (fun l hl => h l (by simp [hl])) n (by simpa using hn)]

theorem join_length (ls : List Str) : ls.length ≤ (crlfLines ls).length := by
  induction ls with
  | nil => simp [crlfLines]
  | cons l ls ih =>
    have : crlfLines (l :: ls) = l ++ ['\r', '\n'] ++ crlfLines ls := by simp [crlfLines]
    rw [this]; simp; omega

/-! ## What is written -/

/-- At most `n` complete lines and the beginning of one more. -/
def Lined (n : Nat) (t : List Char) : Prop :=
  ∃ ls last, t = crlfLines ls ++ last ∧ (∀ l ∈ ls, NoEol l) ∧ NoEol last ∧ ls.length ≤ n

theorem Lined.mono {n k : Nat} {t : List Char} (h : Lined n t) (hk : n ≤ k) : Lined k t := by
  obtain ⟨ls, last, h1, h2, h3, h4⟩ := h
  exact ⟨ls, last, h1, h2, h3, by omega⟩

theorem Lined.text {n size : Nat} {t s r : List Char} (h : Lined n t) (e : put size t s = some r) (hs : NoEol s) : Lined n r := by
  obtain ⟨ls, last, rfl, h2, h3, h4⟩ := h
  unfold put at e
  split at e
  · cases e; exact ⟨ls, last ++ s, by simp, h2, by simp [h3, hs], h4⟩
  · cases e

theorem Lined.eol {n size : Nat} {t r : List Char} (h : Lined n t) (e : put size t "\r\n".toList = some r) : Lined (n + 1) r := by
  obtain ⟨ls, last, rfl, h2, h3, h4⟩ := h
  unfold put at e
  split at e
  · cases e
    refine ⟨ls ++ [last], [], by simp [crlfLines], ?_, by simp, by simp; omega⟩
    intro l hl
    rcases List.mem_append.1 hl with hl | hl
    · exact h2 l hl
    · rw [List.mem_singleton] at hl; rw [hl]; exact h3
  · cases e

theorem lined_simple {to_str : HeaderVal → Option (Int × Option Str)} {name : Str} (hn : NoEol name) {n k : Nat} {x : Option HeaderVal}
    (hx : ∀ y, x = some y → ∀ i t, to_str y = some (i, some t) → NoEol t) {size : Nat} {text : Str} {i : Int} {size' : Nat} {r : Str}
    (e : strcat_simple_header to_str name n x size text = some (i, size', r)) (h : Lined k text) : Lined (k + x.toList.length) r := by
  unfold strcat_simple_header at e
  cases x with
  | none => cases e; exact h.mono (by omega)
  | some y =>
    simp only [Option.bind_eq_bind, Option.bind_eq_some_iff, Option.pure_def] at e
    obtain ⟨t1, h1, ⟨j, o⟩, h2, e⟩ := e
    have g1 := h.text h1 (noEol_take _ hn)
    split at e
    · cases e; exact g1.mono (by omega)
    · simp only [Option.bind_eq_some_iff, Option.some.injEq, Prod.mk.injEq] at e
      obtain ⟨tmp, rfl, t2, h3, t3, h4, -, -, rfl⟩ := e
      exact (g1.text h3 (hx y rfl _ _ h2)).eol h4

theorem lined_headers {to_str : HeaderVal → Option (Int × Option Str)} {name : Str} (hn : NoEol name) {n : Nat} (xs : List HeaderVal) :
    ∀ {size : Nat} {text : Str} {i : Int} {size' : Nat} {r : Str} {k : Nat},
    (∀ y ∈ xs, ∀ i t, to_str y = some (i, some t) → NoEol t) →
    strcat_headers to_str name n xs size text = some (i, size', r) → Lined k text → Lined (k + xs.length) r := by
  induction xs with
  | nil => intro size text i size' r k _ e h; cases e; exact h
  | cons y xs ih =>
    intro size text i size' r k hx e h
    simp only [strcat_headers, Option.bind_eq_bind, Option.bind_eq_some_iff, Option.pure_def] at e
    obtain ⟨t1, h1, ⟨j, o⟩, h2, e⟩ := e
    have g1 := h.text h1 (noEol_take _ hn)
    split at e
    · cases e; exact h.mono (by omega)
    · simp only [Option.bind_eq_some_iff] at e
      obtain ⟨tmp, rfl, t2, h3, t3, h4, e⟩ := e
      have g2 := (g1.text h3 (hx y (by simp) _ _ h2)).eol h4
      exact (ih (fun y hy => hx y (by simp [hy])) e g2).mono (by simp; omega)

/-- The number of headers that have a structure of their own. -/
def SipMessage.known (m : SipMessage) : Nat := (headerOrder.map fun r => (m.hdr r.1).length).sum

/-- Nothing in the headers ends a line. Content-Length is not written from the header. -/
def SipMessage.NoEol (m : SipMessage) : Prop :=
  (∀ k, k ≠ .content_length → ∀ x ∈ m.hdr k, x.NoEol) ∧ ∀ h ∈ m.headers, NoEolO h.hname ∧ NoEolO h.hvalue

theorem lined_table {fresh : Nat → Buf} (hf : ∀ n, (fresh n).length = n) {m : SipMessage} (hm : m.NoEol) (rows : List (String × Nat × Setter)) :
    ∀ {size : Nat} {text : Str} {i : Int} {size' : Nat} {r : Str} {k : Nat}, (∀ x ∈ rows, NoEol x.1.toList ∧ x.2.2 ≠ .content_length) →
    tableLoop fresh m rows size text = some (i, size', r) → Lined k text → Lined (k + (rows.map fun x => (m.hdr x.2.2).length).sum) r := by
  induction rows with
  | nil => intro size text i size' r k _ e h; cases e; exact h
  | cons x rows ih =>
    obtain ⟨name, n, s⟩ := x
    intro size text i size' r k hr e h
    obtain ⟨hn, hs⟩ := hr (name, n, s) (by simp)
    have hx : ∀ y ∈ m.hdr s, ∀ i t, headerToStr fresh s y = some (i, some t) → NoEol t :=
      fun y hy i t e => noEol_headerToStr hf (hm.1 s hs y hy) e
    simp only [tableLoop, Option.bind_eq_bind, Option.bind_eq_some_iff, Option.pure_def] at e
    obtain ⟨⟨j, s1, t1⟩, h1, ⟨j2, s2, t2⟩, h2, e⟩ := e
    have g1 := lined_simple hn (k := k) (x := if (presentCode s).isSome then (m.hdr s).head? else none) (by
      intro y hy
      split at hy
      · exact hx y (List.mem_of_mem_head? hy)
      · cases hy) h1 h
    have g2 := lined_headers hn _ (by
      intro y hy
      split at hy
      · cases hy
      · exact hx y hy) h2 g1
    have g3 : Lined (k + (m.hdr s).length) t2 := by
      refine g2.mono ?_
      split
      · cases m.hdr s <;> simp
      · simp
    split at e
    · cases e; exact g3.mono (by simp)
    · exact (ih (fun x hx => hr x (by simp [hx])) e g3).mono (by simp; omega)

theorem lined_other (hs : List Header) : ∀ {size : Nat} {text : Str} {i : Int} {size' : Nat} {r : Str} {k : Nat},
    (∀ h ∈ hs, NoEolO h.hname ∧ NoEolO h.hvalue) → otherLoop hs size text = some (i, size', r) → Lined k text → Lined (k + hs.length) r := by
  induction hs with
  | nil => intro size text i size' r k _ e h; cases e; exact h
  | cons x hs ih =>
    intro size text i size' r k hx e h
    simp only [otherLoop, Option.bind_eq_bind, Option.bind_eq_some_iff, Option.pure_def] at e
    obtain ⟨⟨j, o⟩, h2, e⟩ := e
    split at e
    · cases e; exact h.mono (by omega)
    · simp only [Option.bind_eq_some_iff] at e
      obtain ⟨tmp, rfl, t2, h3, t3, h4, e⟩ := e
      have g2 := (h.text h3 (noEol_header_to_str (hx x (by simp)) h2)).eol h4
      exact (ih (fun y hy => hx y (by simp [hy])) e g2).mono (by simp; omega)

theorem put_prefix {size : Nat} {t s r : List Char} (e : put size t s = some r) : r = t ++ s := by
  unfold put at e
  split at e
  · cases e; rfl
  · cases e

theorem boundary_prefix {d : Option Str} {size : Nat} {t s r : List Char} (e : putBoundary d size t s = some r) : ∃ B, r = t ++ B := by
  unfold putBoundary at e
  split at e
  · simp only [Option.bind_eq_some_iff] at e
    obtain ⟨t1, h1, h2⟩ := e
    rw [put_prefix h2, put_prefix h1, List.append_assoc]
    exact ⟨_, rfl⟩
  · cases e; exact ⟨[], by simp⟩

theorem bodies_prefix (d : Option Str) (bs : List Body) : ∀ {size : Nat} {t r : List Char} {i : Int} {size' : Nat},
    bodiesLoop d bs size t = some (i, size', r) → ∃ B, r = t ++ B := by
  induction bs with
  | nil => intro size t r i size' e; cases e; exact ⟨[], by simp⟩
  | cons b bs ih =>
    intro size t r i size' e
    simp only [bodiesLoop, Option.bind_eq_bind, Option.bind_eq_some_iff, Option.pure_def] at e
    obtain ⟨t1, h1, ⟨j, o⟩, -, e⟩ := e
    obtain ⟨B1, rfl⟩ := boundary_prefix h1
    split at e
    · cases e; exact ⟨_, rfl⟩
    · simp only [Option.bind_eq_some_iff] at e
      obtain ⟨tmp, rfl, t2, h2, e⟩ := e
      obtain ⟨B2, h3⟩ := ih e
      rw [h3, put_prefix h2]
      exact ⟨B1 ++ tmp ++ B2, by simp⟩

theorem digits_noEol (n : Nat) : NoEol (Nat.toDigits 10 n) := by
  intro c hc
  have := Nat.isDigit_of_mem_toDigits (by omega) (by omega) hc
  constructor <;> rintro rfl <;> revert this <;> decide

theorem intText_noEol (x : Int) : NoEol (intText x) := by
  unfold intText
  split <;> simp [digits_noEol]

theorem intText_short (x : Int) : (intText (toInt32 x)).length ≤ 11 := by
  have h1 : (toInt32 x).natAbs ≤ 2 ^ 31 := by unfold toInt32; omega
  have h2 : (Nat.toDigits 10 (toInt32 x).natAbs).length ≤ 10 := (digits_le (by omega)).2 (by omega)
  unfold intText
  split
  · simp; omega
  · omega

/-- **A message** whose parts have no line ends, if it is written, has at most one line for each header, one for the start and one for the length
before the empty line. -/
theorem written_lines {fresh : Nat → Buf} (hf : ∀ n, (fresh n).length = n) {m m' : SipMessage} (hm : m.NoEol) (hc : m.cached = none)
    (hs : ∀ t, startline_to_str fresh m.start = some (OSIP_SUCCESS, some t) → NoEol t) {T : List Char}
    (e : osip_message_to_str fresh false m = some (OSIP_SUCCESS, m', some T)) :
    ∃ ls body, T = crlfLines ls ++ '\r' :: '\n' :: body ∧ (∀ l ∈ ls, NoEol l) ∧ ls.length ≤ 1 + m.known + m.headers.length + 1 := by
  unfold osip_message_to_str at e
  simp only [hc, Option.bind_eq_bind, Option.bind_eq_some_iff] at e
  obtain ⟨⟨i, tmp⟩, h0, e⟩ := e
  split at e
  · rename_i hi; simp at e
  rename_i hi
  have hi0 : i = OSIP_SUCCESS := by simpa [OSIP_SUCCESS] using hi
  subst hi0
  rw [if_neg (by simp [OSIP_SUCCESS])] at e
  simp only [Option.bind_eq_some_iff, Option.pure_def, Option.some.injEq, Prod.mk.injEq] at e
  obtain ⟨⟨z, t1⟩, ⟨s, rfl, t0, k0, t, k1, rfl, rfl⟩, ⟨i, s2, t2⟩, h2, e⟩ := e
  have g1 : Lined 1 t1 := by
    have : Lined 0 ([] : List Char) := ⟨[], [], by simp [crlfLines], by simp, by simp, by simp⟩
    exact (this.text k0 (hs _ h0)).eol k1
  have hrows : ∀ x ∈ toStrTable, NoEol x.1.toList ∧ x.2.2 ≠ .content_length := by decide
  have g2 := lined_table hf hm toStrTable hrows h2 g1
  split at e
  · rename_i hi; simp at e
  simp only [Option.bind_eq_some_iff] at e
  obtain ⟨⟨i, s3, t3⟩, h3, e⟩ := e
  have g3 := lined_other _ hm.2 h3 g2
  split at e
  · rename_i hi; simp at e
  rw [if_neg (by simp)] at e
  simp only [Option.bind_eq_some_iff] at e
  obtain ⟨t4, h4, t5, h5, t6, h6, t7, h7, e⟩ := e
  have hk : (toStrTable.map fun x => (m.hdr x.2.2).length).sum = m.known := rfl
  rw [hk] at g3
  obtain ⟨ls, last, rfl, l1, l2, l3⟩ := g3
  have hcl : NoEol "Content-Length: ".toList := by decide
  rw [put_prefix h4] at h5 e
  rw [put_prefix h5] at h6
  rw [put_prefix h6] at h7
  rw [put_prefix h7] at e
  have eol : "\r\n".toList = ['\r', '\n'] := rfl
  by_cases hb : m.bodies = []
  · simp only [hb, if_true, Option.some.injEq, Prod.mk.injEq] at e
    obtain ⟨-, -, rfl⟩ := e
    have h00 : NoEol "0".toList := by decide
    refine ⟨ls ++ [last ++ "Content-Length: ".toList ++ "0".toList], [], ?_, ?_, by simp; omega⟩
    · simp only [crlfLines, eol]; simp
    · intro l hl
      rcases List.mem_append.1 hl with hl | hl
      · exact l1 l hl
      · rw [List.mem_singleton] at hl; rw [hl]; simp only [noEol_append]; exact ⟨⟨l2, hcl⟩, h00⟩
  · simp only [if_neg hb] at e
    unfold bodiesToStr at e
    simp only [Option.bind_eq_bind, Option.bind_eq_some_iff] at e
    obtain ⟨o, -, e⟩ := e
    cases o with
    | error i => simp at e
    | ok o =>
      simp only [Option.bind_eq_some_iff] at e
      obtain ⟨⟨i, s8, t8⟩, h8, e⟩ := e
      split at e
      · simp at e
      simp only [Option.bind_eq_some_iff, Option.pure_def, Option.some.injEq, Prod.mk.injEq] at e
      obtain ⟨t9, h9, t10, h10, -, -, rfl⟩ := e
      obtain ⟨B1, h8⟩ := bodies_prefix _ _ h8
      obtain ⟨B2, h9⟩ := boundary_prefix h9
      rw [h8] at h9
      generalize hD : intText (toInt32 ((t9.length - _ : Nat) : Int)) = D at h10
      have hd1 : D.length ≤ 11 := by rw [← hD]; exact intText_short _
      have hd2 : NoEol D := by rw [← hD]; exact intText_noEol _
      unfold overwrite at h10
      split at h10
      · cases h10
        generalize hW : "Content-Length: ".toList = W at *
        generalize hV : "     ".toList = V at *
        have hWl : W.length = 16 := by rw [← hW]; decide
        have hVl : V.length = 5 := by rw [← hV]; decide
        have hVn : NoEol V := by rw [← hV]; decide
        have e9 : t9 = (crlfLines ls ++ last) ++ (W ++ V) ++ '\r' :: '\n' :: '\r' :: '\n' :: (B1 ++ B2) := by rw [h9, eol]; simp
        generalize hj : 21 - D.length = j
        have hp : ((((crlfLines ls ++ last ++ W).length : Nat) : Int) + 5 - (D.length : Int)).toNat = (crlfLines ls ++ last).length + j := by
          rw [List.length_append (bs := W)]; omega
        simp only [hp]
        rw [e9]
        have d1 : ((crlfLines ls ++ last) ++ (W ++ V) ++ '\r' :: '\n' :: '\r' :: '\n' :: (B1 ++ B2)).take ((crlfLines ls ++ last).length + j) =
            (crlfLines ls ++ last) ++ (W ++ V).take j := by
          rw [List.append_assoc, List.take_length_add_append, List.take_append_of_le_length (by simp; omega)]
        have d2 : ((crlfLines ls ++ last) ++ (W ++ V) ++ '\r' :: '\n' :: '\r' :: '\n' :: (B1 ++ B2)).drop ((crlfLines ls ++ last).length + j + D.length) =
            '\r' :: '\n' :: '\r' :: '\n' :: (B1 ++ B2) := by
          have : (crlfLines ls ++ last).length + j + D.length = ((crlfLines ls ++ last) ++ (W ++ V)).length := by simp; omega
          rw [this, List.drop_left]
        rw [d1, d2]
        refine ⟨ls ++ [last ++ (W ++ V).take j ++ D], B1 ++ B2, ?_, ?_, by simp; omega⟩
        · simp [crlfLines]
        · intro l hl
          rcases List.mem_append.1 hl with hl | hl
          · exact l1 l hl
          · rw [List.mem_singleton] at hl
            rw [hl]
            simp only [noEol_append]
            exact ⟨⟨l2, noEol_take _ (by simp [hcl, hVn])⟩, hd2⟩
      · cases h10

end Osip
