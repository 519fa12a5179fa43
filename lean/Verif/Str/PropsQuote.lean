import Verif.Str.PropsTrim

/-!
# C41, C42: quoted strings
-/

set_option autoImplicit false

namespace Osip

/-! ## Specification -/

/-- The number of backslashes immediately before position `k`. -/
def backslashesBefore (s : Str) (k : Nat) : Nat := ((s.take k).reverse.takeWhile (· = '\\')).length

/-- Position `k` holds a quote preceded by an even number of backslashes. -/
def UnescapedQuote (s : Str) (k : Nat) : Prop := s[k]? = some '"' ∧ backslashesBefore s k % 2 = 0

/-! ## Lemmas -/

theorem strchr_none {p s r : List Char} {c : Char} (hs : NUL ∉ s) (hc : c ∉ s) (hcn : c ≠ NUL) {i : Int}
    (hi : i = p.length) : Buf.strchr (p ++ (s ++ NUL :: r)) i c = some none := by
  subst hi
  have : (s ++ NUL :: r).takeWhile (fun x => decide (x ≠ NUL ∧ x ≠ c)) = s := by
    rw [List.takeWhile_append_of_pos]
    · simp
    · intro x hx
      simp only [ne_eq, decide_eq_true_eq]
      exact ⟨fun h => hs (h ▸ hx), fun h => hc (h ▸ hx)⟩
  simp only [Buf.strchr]
  rw [if_pos (by omega)]
  simp only [Int.toNat_natCast, List.drop_left]
  rw [if_pos (by simp), this]
  simp [hcn.symm]

theorem strchr_some {p s r : List Char} {c : Char} (hs : NUL ∉ s) (hc : c ∉ s) (hr : NUL ∈ r) {i : Int}
    (hi : i = p.length) :
    Buf.strchr (p ++ (s ++ c :: r)) i c = some (some ((p.length : Int) + (s.length : Int))) := by
  subst hi
  have : (s ++ c :: r).takeWhile (fun x => decide (x ≠ NUL ∧ x ≠ c)) = s := by
    rw [List.takeWhile_append_of_pos]
    · simp
    · intro x hx
      simp only [ne_eq, decide_eq_true_eq]
      exact ⟨fun h => hs (h ▸ hx), fun h => hc (h ▸ hx)⟩
  simp only [Buf.strchr]
  rw [if_pos (by omega)]
  simp only [Int.toNat_natCast, List.drop_left]
  rw [if_pos (by simp [hr]), this]
  simp

/-- The characters before a position: a run of backslashes, and before it nothing or something else. -/
theorem run_before (p : Str) : ∃ p₀, p = p₀ ++ List.replicate (p.reverse.takeWhile (· = '\\')).length '\\' ∧
    (p₀ = [] ∨ ∃ p₁ c, p₀ = p₁ ++ [c] ∧ c ≠ '\\') := by
  have h := (List.takeWhile_append_dropWhile (p := fun c => decide (c = '\\')) (l := p.reverse)).symm
  have hr : p.reverse.takeWhile (· = '\\') = List.replicate (p.reverse.takeWhile (· = '\\')).length '\\' := by
    rw [List.eq_replicate_iff]
    refine ⟨rfl, fun b hb => ?_⟩
    have := List.all_eq_true.1 (List.all_takeWhile (p := fun c => decide (c = '\\'))) b hb
    simpa using this
  refine ⟨(p.reverse.dropWhile (· = '\\')).reverse, ?_, ?_⟩
  · have := congrArg List.reverse h
    rw [List.reverse_reverse, List.reverse_append] at this
    conv => lhs; rw [this]
    rw [hr, List.reverse_replicate]
    simp
  · cases hd : p.reverse.dropWhile (· = '\\') with
    | nil => left; rfl
    | cons c t =>
      right
      refine ⟨t.reverse, c, by simp, ?_⟩
      have := List.head?_dropWhile_not (fun c => decide (c = '\\')) p.reverse
      rw [hd] at this
      simpa using this

/-- Rounds spent on one quote, preceded by `n` backslashes, until it is accepted or skipped. -/
theorem quoteLoop_one {p₀ rest r : List Char} {n : Nat} {q i fuel : Nat}
    (hp : p₀ = [] ∨ ∃ p₁ c, p₀ = p₁ ++ [c] ∧ c ≠ '\\')
    (hq : q = 0 ∨ (p₀ ++ List.replicate n '\\')[q - 1]? = some '"') (hqk : q ≤ p₀.length + n)
    (hk : 1 ≤ p₀.length + n) (hi1 : 1 ≤ i) (hin : i ≤ n + 1) (hiq : i ≤ p₀.length + n - q ∨ i = 1)
    (hf : n + 2 ≤ fuel + i) :
    (n % 2 = 0 → quoteLoop (p₀ ++ List.replicate n '\\' ++ '"' :: (rest ++ NUL :: r)) fuel q
      ((p₀.length + n : Nat) : Int) i = some (some ((p₀.length + n : Nat) : Int))) ∧
    (n % 2 = 1 → ∃ fuel' q', q ≤ q' ∧ q' ≤ p₀.length + n + 1 ∧ fuel + i ≤ fuel' + n + 2 ∧
      (q' = q ∨ q' = p₀.length + n + 1) ∧
      quoteLoop (p₀ ++ List.replicate n '\\' ++ '"' :: (rest ++ NUL :: r)) fuel q
        ((p₀.length + n : Nat) : Int) i =
        (Buf.strchr (p₀ ++ List.replicate n '\\' ++ '"' :: (rest ++ NUL :: r))
          (((p₀.length + n : Nat) : Int) + 1) '"').bind (fun x => match x with
          | none => some none
          | some quote' => quoteLoop (p₀ ++ List.replicate n '\\' ++ '"' :: (rest ++ NUL :: r)) fuel'
              q' quote' 1)) := by
  generalize hb : p₀ ++ List.replicate n '\\' ++ '"' :: (rest ++ NUL :: r) = b
  have hnq : n ≤ p₀.length + n - q := by
    rcases hq with rfl | hq
    · omega
    · by_cases h : q = 0
      · omega
      · by_cases h2 : q ≤ p₀.length
        · omega
        · exfalso
          rw [List.getElem?_append_right (by omega), List.getElem?_replicate, if_pos (by omega)] at hq
          cases hq
  have hbs : ∀ j : Nat, 1 ≤ j → j ≤ n → Buf.rd b (((p₀.length + n : Nat) : Int) - (j : Int)) = some '\\' := by
    intro j h1 h2
    have : (((p₀.length + n : Nat) : Int) - (j : Int)) = ((p₀.length + n - j : Nat) : Int) := by omega
    rw [this, rd_nat, ← hb, List.append_assoc, List.getElem?_append_right (by omega),
      List.getElem?_append_left (by rw [List.length_replicate]; omega), List.getElem?_replicate, if_pos (by omega)]
  induction fuel generalizing i with
  | zero => omega
  | succ fuel ih =>
    by_cases hlast : i = n + 1
    · -- the character before the run
      have hrd : ∃ c, Buf.rd b (((p₀.length + n : Nat) : Int) - (i : Int)) = some c ∧ c ≠ '\\' := by
        rcases hp with rfl | ⟨p₁, c, rfl, hc⟩
        · exfalso
          simp at *
          rcases hiq with h | h <;> omega
        · refine ⟨c, ?_, hc⟩
          have : ((((p₁ ++ [c]).length + n : Nat) : Int) - (i : Int)) = ((p₁.length : Nat) : Int) := by
            simp; omega
          rw [this, rd_nat, ← hb]
          simp
      obtain ⟨c, hrd, hc⟩ := hrd
      constructor
      · intro hn
        simp only [quoteLoop, hrd, Option.bind_eq_bind, Option.bind_some, hc, if_false]
        rw [if_pos (by omega)]
        rfl
      · intro hn
        refine ⟨fuel, q, Nat.le_refl _, by omega, by omega, .inl rfl, ?_⟩
        simp only [quoteLoop, hrd, Option.bind_eq_bind, Option.bind_some, hc, if_false]
        rw [if_neg (by omega)]
        cases hs : Buf.strchr b (((p₀.length + n : Nat) : Int) + 1) '"' with
        | none => rfl
        | some x =>
          cases x with
          | none => rfl
          | some quote' =>
            simp only [Option.bind_some]
            have hge : ((p₀.length + n : Nat) : Int) + 1 ≤ quote' := by
              simp only [Buf.strchr] at hs
              split at hs
              · split at hs
                · split at hs
                  · simp only [Option.some.injEq] at hs; omega
                  · cases hs
                · cases hs
              · cases hs
            rw [if_neg (by omega)]
    · have hrd := hbs i hi1 (by omega)
      by_cases hend : i = p₀.length + n - q
      · have hni : n = i := by omega
        have hrq : Buf.rd b (q : Int) = some '\\' := by
          have := hbs i hi1 (by omega)
          have e : (((p₀.length + n : Nat) : Int) - (i : Int)) = (q : Int) := by omega
          rwa [e] at this
        constructor
        · intro hn
          simp only [quoteLoop, hrd, Option.bind_eq_bind, Option.bind_some, if_true]
          rw [if_pos (by omega)]
          simp only [hrq, Option.bind_some, if_true]
          rw [if_pos (by omega)]
          rfl
        · intro hn
          refine ⟨fuel, p₀.length + n + 1, by omega, Nat.le_refl _, by omega, .inr rfl, ?_⟩
          simp only [quoteLoop, hrd, Option.bind_eq_bind, Option.bind_some, if_true]
          rw [if_pos (by omega)]
          simp only [hrq, Option.bind_some, if_true]
          rw [if_neg (by omega)]
          cases hs : Buf.strchr b (((p₀.length + n : Nat) : Int) + 1) '"' with
          | none => rfl
          | some x => cases x <;> rfl
      · have ih' := ih (i := i + 1) (by omega) (by omega) (by omega) (by omega)
        have hstep : quoteLoop b (fuel + 1) q ((p₀.length + n : Nat) : Int) i =
            quoteLoop b fuel q ((p₀.length + n : Nat) : Int) ((i + 1 : Nat) : Int) := by
          conv => lhs; simp only [quoteLoop, hrd, Option.bind_eq_bind, Option.bind_some, if_true]
          rw [if_neg (by omega)]
          rfl
        rw [hstep]
        refine ⟨ih'.1, fun hn => ?_⟩
        obtain ⟨f', q', h1, h2, h3, h4, h5⟩ := ih'.2 hn
        exact ⟨f', q', h1, h2, by omega, h4, h5⟩

theorem first_quote (s : Str) : '"' ∉ s ∨ ∃ t u, s = t ++ '"' :: u ∧ '"' ∉ t := by
  by_cases h : '"' ∈ s
  · right
    refine ⟨s.takeWhile (· ≠ '"'), (s.dropWhile (· ≠ '"')).tail, ?_, ?_⟩
    · have e := (List.takeWhile_append_dropWhile (p := fun c => decide (c ≠ '"')) (l := s)).symm
      cases hd : s.dropWhile (· ≠ '"') with
      | nil =>
        rw [hd, List.append_nil] at e
        have := List.all_eq_true.1 (List.all_takeWhile (p := fun c => decide (c ≠ '"')) (l := s)) '"' (by rw [← e]; exact h)
        simp at this
      | cons c v =>
        have hc : c = '"' := by
          have := List.head?_dropWhile_not (fun c => decide (c ≠ '"')) s
          rw [hd] at this
          simpa using this
        rw [hd] at e
        subst hc
        exact e
    · intro hm
      have := List.all_eq_true.1 (List.all_takeWhile (p := fun c => decide (c ≠ '"')) (l := s)) '"' hm
      simp at this
  · exact .inl h

theorem backslashes_append (p rest : Str) :
    backslashesBefore (p ++ rest) p.length = (p.reverse.takeWhile (· = '\\')).length := by
  simp [backslashesBefore]

theorem backslashes_le (p t : Str) :
    ((p ++ '"' :: t).reverse.takeWhile (· = '\\')).length ≤ t.length := by
  have h := List.takeWhile_prefix (l := (p ++ '"' :: t).reverse) (p := fun c => decide (c = '\\'))
  rw [List.reverse_append, List.reverse_cons] at h ⊢
  rw [List.append_assoc] at h ⊢
  by_cases hall : ∀ c ∈ t.reverse, decide (c = '\\') = true
  · rw [List.takeWhile_append_of_pos hall]
    simp
  · have : (t.reverse ++ (['"'] ++ p.reverse)).takeWhile (fun c => decide (c = '\\')) =
        t.reverse.takeWhile (fun c => decide (c = '\\')) := by
      rw [List.takeWhile_append]
      rw [if_neg]
      intro hl
      apply hall
      intro c hc
      have := (List.takeWhile_prefix (l := t.reverse) (p := fun c => decide (c = '\\'))).eq_of_length hl
      rw [← this] at hc
      exact List.all_eq_true.1 List.all_takeWhile c hc
    rw [this]
    have := (List.takeWhile_prefix (l := t.reverse) (p := fun c => decide (c = '\\'))).length_le
    simpa using this

/-- What `__osip_quote_find` must return when it looks at the quotes from position `k` on. -/
def FirstFrom (s : Str) (k : Nat) : Option Int → Prop
  | none => ∀ j, k ≤ j → ¬ UnescapedQuote s j
  | some i => ∃ j : Nat, i = j ∧ k ≤ j ∧ UnescapedQuote s j ∧ ∀ j', k ≤ j' → j' < j → ¬ UnescapedQuote s j'

theorem quoteLoop_all (m : Nat) : ∀ {p rest r : List Char} {q fuel : Nat}, rest.length ≤ m →
    Str.Ok (p ++ '"' :: rest) → (q = 0 ∨ p[q - 1]? = some '"') → q ≤ p.length → 1 ≤ p.length →
    (p.reverse.takeWhile (· = '\\')).length + 1 + rest.length ≤ fuel →
    ∃ res, quoteLoop (p ++ '"' :: (rest ++ NUL :: r)) fuel q (p.length : Int) 1 = some res ∧
      FirstFrom (p ++ '"' :: rest) p.length res := by
  induction m with
  | zero =>
    intro p rest r q fuel hm hs hq hqk hk hf
    have : rest = [] := List.length_eq_zero_iff.1 (by omega)
    subst this
    obtain ⟨p₀, hp, hp0⟩ := run_before p
    have hbb := backslashes_append p ('"' :: [])
    generalize (p.reverse.takeWhile (· = '\\')).length = n at *
    subst hp
    simp only [List.length_append, List.length_replicate] at hqk hk hbb
    have h1 := quoteLoop_one (rest := []) (r := r) (fuel := fuel) (i := 1) hp0 hq hqk hk (Nat.le_refl _) (by omega)
      (.inr rfl) (by omega)
    simp only [List.length_append, List.length_replicate]
    have hat : (p₀ ++ List.replicate n '\\' ++ ['"'])[p₀.length + n]? = some '"' := by
      rw [List.getElem?_append_right (by simp)]; simp
    rcases Nat.mod_two_eq_zero_or_one n with hn | hn
    · refine ⟨_, h1.1 hn, p₀.length + n, rfl, Nat.le_refl _, ⟨hat, ?_⟩, fun j' h1 h2 => by omega⟩
      rw [hbb, hn]
    · obtain ⟨f', q', g1, g2, g3, g4, g5⟩ := h1.2 hn
      have hsc := strchr_none (p := p₀ ++ List.replicate n '\\' ++ ['"']) (s := []) (r := r) (c := '"') (by simp) (by simp)
        (by decide) (i := ((p₀.length + n : Nat) : Int) + 1) (by simp; omega)
      simp only [List.append_assoc, List.singleton_append, List.nil_append] at hsc g5 ⊢
      rw [hsc] at g5
      refine ⟨none, g5, ?_⟩
      intro j hj hu
      by_cases hje : j = p₀.length + n
      · subst hje
        have := hu.2
        simp only [List.append_assoc] at hbb
        rw [hbb] at this
        omega
      · have := hu.1
        rw [List.getElem?_eq_none (by simp; omega)] at this
        cases this
  | succ m ih =>
    intro p rest r q fuel hm hs hq hqk hk hf
    obtain ⟨p₀, hp, hp0⟩ := run_before p
    have hbb := backslashes_append p ('"' :: rest)
    generalize hn' : (p.reverse.takeWhile (· = '\\')).length = n at *
    have hlen : p.length = p₀.length + n := by rw [hp]; simp
    have h1 := quoteLoop_one (rest := rest) (r := r) (fuel := fuel) (i := 1) (n := n) hp0 (by rw [← hp]; exact hq)
      (by omega) (by omega) (Nat.le_refl _) (by omega) (.inr rfl) (by omega)
    rw [← hp, ← hlen] at h1
    have hat : (p ++ '"' :: rest)[p.length]? = some '"' := by simp
    rcases Nat.mod_two_eq_zero_or_one n with hn | hn
    · refine ⟨_, h1.1 hn, p.length, rfl, Nat.le_refl _, ⟨hat, ?_⟩, fun j' h1 h2 => by omega⟩
      rw [hbb, hn]
    · obtain ⟨f', q', g1, g2, g3, g4, g5⟩ := h1.2 hn
      have hnot : ¬ UnescapedQuote (p ++ '"' :: rest) p.length := by
        intro hu; have := hu.2; rw [hbb] at this; omega
      rcases first_quote rest with hnq | ⟨t, u, ht, htq⟩
      · have hrn : NUL ∉ rest := by intro h; apply hs; simp [h]
        have hsc := strchr_none (p := p ++ ['"']) (s := rest) (r := r) (c := '"') hrn hnq
          (by decide) (i := (p.length : Int) + 1) (by simp)
        simp only [List.append_assoc, List.singleton_append] at hsc
        rw [hsc] at g5
        refine ⟨none, g5, ?_⟩
        intro j hj hu
        by_cases hje : j = p.length
        · subst hje; exact hnot hu
        · have := hu.1
          rw [List.getElem?_append_right (by omega)] at this
          obtain ⟨d, hd⟩ : ∃ d, j - p.length = d + 1 := ⟨j - p.length - 1, by omega⟩
          rw [hd, List.getElem?_cons_succ] at this
          exact hnq (List.mem_of_getElem? this)
      · subst ht
        have htn : NUL ∉ t := by intro h; apply hs; simp [h]
        have hsc := strchr_some (p := p ++ ['"']) (s := t) (r := u ++ NUL :: r) (c := '"') htn htq
          (by simp) (i := (p.length : Int) + 1) (by simp)
        simp only [List.append_assoc, List.singleton_append, List.cons_append, List.nil_append] at hsc g5
        rw [hsc] at g5
        simp only [Option.bind_some] at g5
        have hle := backslashes_le p t
        obtain ⟨res, e1, e2⟩ := ih (p := p ++ '"' :: t) (rest := u) (r := r) (q := q') (fuel := f')
          (by simp at hm; omega) (by simpa using hs) (by
            rcases g4 with rfl | rfl
            · rcases hq with h | h
              · exact .inl h
              · by_cases hz : q' = 0
                · exact .inl hz
                · right; rw [List.getElem?_append_left (by omega)]; exact h
            · right; simp) (by simp; omega) (by simp; omega) (by simp at hf; omega)
        refine ⟨res, ?_, ?_⟩
        · simp only [List.append_assoc, List.cons_append] at e1 ⊢
          refine Eq.trans g5 ?_
          rw [← e1]
          congr 1
          simp; omega
        · have hbet : ∀ j, p.length ≤ j → j < (p ++ '"' :: t).length →
              ¬ UnescapedQuote (p ++ '"' :: (t ++ '"' :: u)) j := by
            intro j hj1 hj2 hu
            by_cases hje : j = p.length
            · subst hje; exact hnot hu
            · have := hu.1
              rw [List.getElem?_append_right (by omega)] at this
              obtain ⟨d, hd⟩ : ∃ d, j - p.length = d + 1 := ⟨j - p.length - 1, by omega⟩
              rw [hd, List.getElem?_cons_succ, List.getElem?_append_left (by simp at hj2; omega)] at this
              exact htq (List.mem_of_getElem? this)
          rw [List.append_assoc, List.cons_append] at e2
          cases res with
          | none =>
            intro j hj
            by_cases hlt : j < (p ++ '"' :: t).length
            · exact hbet j hj hlt
            · exact e2 j (by omega)
          | some i =>
            obtain ⟨j, rfl, hj1, hj2, hj3⟩ := e2
            refine ⟨j, rfl, by simp at hj1; omega, hj2, fun j' h1 h2 => ?_⟩
            by_cases hlt : j' < (p ++ '"' :: t).length
            · exact hbet j' h1 hlt
            · exact hj3 j' (by omega) h2

/-- **C41**. For every string - with any bytes `r` after its terminator - `__osip_quote_find` returns
the first quote preceded by an even number of backslashes, NULL if there is none, and reads only the
string and its terminator. -/
theorem c41_quote_find {s : Str} (hs : s.Ok) (r : List Char) :
    ∃ res, quote_find (s ++ NUL :: r) = some res ∧ FirstFrom s 0 res := by
  rcases first_quote s with hnq | ⟨t, u, rfl, htq⟩
  · have hsc := strchr_none (p := []) (s := s) (r := r) (c := '"') hs hnq (by decide) (i := 0) rfl
    rw [List.nil_append] at hsc
    refine ⟨none, by simp only [quote_find, hsc, Option.bind_eq_bind, Option.bind_some]; rfl, ?_⟩
    intro j _ hu
    exact hnq (List.mem_of_getElem? hu.1)
  · have htn : NUL ∉ t := by intro h; apply hs; simp [h]
    have hsc := strchr_some (p := []) (s := t) (r := u ++ NUL :: r) (c := '"') htn htq (by simp) (i := 0) rfl
    rw [List.nil_append] at hsc
    simp only [quote_find, List.append_assoc, List.cons_append, hsc, Option.bind_eq_bind, Option.bind_some,
      List.length_nil, Int.natCast_zero, Int.zero_add]
    by_cases ht : t = []
    · subst ht
      exact ⟨some 0, by simp, 0, rfl, Nat.le_refl _, ⟨by simp, by simp [backslashesBefore]⟩, fun j h1 h2 => by omega⟩
    · have hpos := List.length_pos_iff.2 ht
      rw [if_neg (by omega)]
      have hle : (t.reverse.takeWhile (· = '\\')).length ≤ t.length := by
        have := (List.takeWhile_prefix (l := t.reverse) (p := fun c => decide (c = '\\'))).length_le
        simpa using this
      obtain ⟨res, e1, e2⟩ := quoteLoop_all u.length (p := t) (rest := u) (r := r) (q := 0)
        (fuel := 2 * (t ++ '"' :: (u ++ NUL :: r)).length) (Nat.le_refl _) hs (.inl rfl) (by omega) (by omega)
        (by simp; omega)
      refine ⟨res, e1, ?_⟩
      have hbet : ∀ j, j < t.length → ¬ UnescapedQuote (t ++ '"' :: u) j := by
        intro j hj hu
        have := hu.1
        rw [List.getElem?_append_left hj] at this
        exact htq (List.mem_of_getElem? this)
      cases res with
      | none =>
        intro j hj
        by_cases hlt : j < t.length
        · exact hbet j hlt
        · exact e2 j (by omega)
      | some i =>
        obtain ⟨j, rfl, hj1, hj2, hj3⟩ := e2
        refine ⟨j, rfl, by omega, hj2, fun j' h1 h2 => ?_⟩
        by_cases hlt : j' < t.length
        · exact hbet j' hlt
        · exact hj3 j' (by omega) h2

example : quote_find (Str.buf "a\\\"b\\\\\"c\"".toList) = some (some 6) := by decide +kernel
example : quote_find (Str.buf "\\\"\\\"".toList) = some none := by decide +kernel

end Osip
