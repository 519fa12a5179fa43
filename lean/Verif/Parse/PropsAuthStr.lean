import Verif.Parse.PropsAuth

/-!
# C80, C81: challenges and credentials are written and read back
-/

set_option autoImplicit false

namespace Osip

/-! ## Specification -/

/-- The fields of a header which survive. -/
structure WfFields (T : List (DirKind × Str)) (F : Fields) : Prop where
  known : ∀ n, n ∉ T.map (·.2) → F n = none
  some : ∃ n, F n ≠ none
  value : ∀ k n, (k, n) ∈ T → ∀ v ∈ F n, match k with
    | .quoted => IsQuoted v ∧ v ≠ "\"\"".toList
    | .token => IsToken v ∧ 5 ≤ n.length + v.length

/-! ## Lemmas -/

/-- The directives of the fields that are set, in the given order. -/
def mkDirs (F : Fields) : Bool → List Str → List Directive
  | _, [] => []
  | first, n :: ns =>
    match F n with
    | none => mkDirs F first ns
    | some v => ⟨if first then [] else [' '], n, v⟩ :: mkDirs F false ns

/-- What is appended. -/
def sepText (F : Fields) (sep : Str) : List (Str × Str) → Bool → Str
  | [], _ => []
  | (n, t) :: l, first =>
    match F n with
    | none => sepText F sep l first
    | some v => (if first then [] else sep) ++ (t ++ v) ++ sepText F sep l false

def NoneSet (F : Fields) (ns : List Str) : Prop := ∀ n ∈ ns, F n = none

theorem sepText_none {F : Fields} {sep : Str} {l : List (Str × Str)} (h : ∀ x ∈ l, F x.1 = none) (first : Bool) : sepText F sep l first = [] := by
  induction l generalizing first with
  | nil => rfl
  | cons x l ih =>
    obtain ⟨n, t⟩ := x
    rw [sepText, h (n, t) (by simp)]
    exact ih (fun x hx => h x (by simp [hx])) first

theorem sepAppend_eq (F : Fields) (len : Nat) (sep : Str) (l : List (Str × Str)) (first : Bool) (buf : Str) :
    (¬ (∀ x ∈ l, F x.1 = none) → sepAppend F len sep l first buf = put len buf (sepText F sep l first)) ∧
    ((∀ x ∈ l, F x.1 = none) → sepAppend F len sep l first buf = some buf) := by
  induction l generalizing first buf with
  | nil => simp [sepAppend]
  | cons x l ih =>
    obtain ⟨n, t⟩ := x
    constructor
    · intro h
      cases hF : F n with
      | none =>
        have h' : ¬ ∀ x ∈ l, F x.1 = none := by
          intro hl
          apply h
          intro x hx
          rcases List.mem_cons.1 hx with rfl | hx
          · exact hF
          · exact hl x hx
        simp only [sepAppend, sepText, hF]
        exact (ih first buf).1 h'
      | some v =>
        simp only [sepAppend, sepText, hF]
        by_cases hl : ∀ x ∈ l, F x.1 = none
        · rw [sepText_none hl, List.append_nil]
          generalize hp : put len buf _ = p
          cases p with
          | none => rfl
          | some b => exact (ih false b).2 hl
        · by_cases hfit : (buf ++ ((if first then [] else sep) ++ (t ++ v))).length < len
          · rw [put_fits (by simpa only [List.length_append] using hfit)]
            simp only [Option.bind_eq_bind, Option.bind_some]
            rw [(ih false _).1 hl]
            simp only [put, List.append_assoc]
          · have e1 : put len buf ((if first then [] else sep) ++ (t ++ v)) = none := by rw [put, if_neg hfit]
            rw [e1, put, if_neg (by simp only [List.length_append] at hfit ⊢; omega)]
            rfl
    · intro h
      simp only [sepAppend, h (n, t) (by simp)]
      exact (ih first buf).2 fun x hx => h x (by simp [hx])

/-- The length of a field that is set. -/
def cnt (F : Fields) (n : Str) (c : Nat) : Nat := match F n with | none => 0 | some v => v.length + c

theorem countFields_eq (F : Fields) (l : List (Str × Nat)) : countFields F l = (l.map fun x => cnt F x.1 x.2).sum := rfl

theorem sepText_length (F : Fields) (sep : Str) (l : List (Str × Str)) :
    (sepText F sep l false).length = (l.map fun x => cnt F x.1 (x.2.length + sep.length)).sum := by
  induction l with
  | nil => rfl
  | cons x l ih =>
    obtain ⟨n, t⟩ := x
    simp only [List.map_cons, List.sum_cons]
    rw [← ih, sepText, cnt]
    cases F n with
    | none => simp
    | some v => simp; omega

theorem sepText_first (F : Fields) (sep : Str) (l : List (Str × Str)) (h : ¬ ∀ x ∈ l, F x.1 = none) :
    sepText F sep l false = sep ++ sepText F sep l true := by
  induction l with
  | nil => simp at h
  | cons x l ih =>
    obtain ⟨n, t⟩ := x
    simp only [sepText]
    cases hF : F n with
    | none =>
      refine ih fun hl => h ?_
      intro x hx
      rcases List.mem_cons.1 hx with rfl | hx
      · exact hF
      · exact hl x hx
    | some v => simp

/-! ## The text as directives -/

theorem sepText_more (F : Fields) (sep : Str) (pre : Str) (hsp : sep ++ pre = [',', ' ']) (names : List Str) :
    sepText F sep (names.map fun n => (n, pre ++ n ++ ['='])) false = moreText (mkDirs F false names) := by
  induction names with
  | nil => rfl
  | cons n names ih =>
    simp only [List.map_cons, sepText, mkDirs]
    cases F n with
    | none => exact ih
    | some v =>
      simp only [moreText, List.flatMap_cons, Directive.text, Bool.false_eq_true, if_false] at ih ⊢
      rw [ih]
      have : ∀ x : Str, sep ++ (pre ++ x) = ',' :: ' ' :: x := by intro x; rw [← List.append_assoc, hsp]; rfl
      simp [this]

theorem sepText_dirs (F : Fields) (sep : Str) (pre : Str) (hsp : sep ++ pre = [',', ' ']) (names : List Str)
    (h : ¬ NoneSet F names) :
    sepText F sep (names.map fun n => (n, pre ++ n ++ ['='])) true = pre ++ dirsText (mkDirs F true names) := by
  induction names with
  | nil => simp [NoneSet] at h
  | cons n names ih =>
    simp only [List.map_cons, sepText, mkDirs]
    cases hF : F n with
    | none =>
      refine ih fun hl => h ?_
      intro x hx
      rcases List.mem_cons.1 hx with rfl | hx
      · exact hF
      · exact hl x hx
    | some v =>
      simp only [sepText_more F sep pre hsp, dirsText, moreText, Directive.text, if_true]
      simp

theorem mkDirs_ne {F : Fields} {names : List Str} (h : ¬ NoneSet F names) (b : Bool) : mkDirs F b names ≠ [] := by
  induction names generalizing b with
  | nil => simp [NoneSet] at h
  | cons n names ih =>
    simp only [mkDirs]
    cases hF : F n with
    | some v => simp
    | none =>
      refine ih (fun hl => h ?_) b
      intro x hx
      rcases List.mem_cons.1 hx with rfl | hx
      · exact hF
      · exact hl x hx

theorem mkDirs_mem {F : Fields} {names : List Str} {b : Bool} {d : Directive} (h : d ∈ mkDirs F b names) :
    d.name ∈ names ∧ F d.name = some d.value ∧ (d.lead = [] ∨ d.lead = [' ']) := by
  induction names generalizing b with
  | nil => cases h
  | cons n names ih =>
    simp only [mkDirs] at h
    cases hF : F n with
    | none =>
      rw [hF] at h
      obtain ⟨h1, h2, h3⟩ := ih h
      exact ⟨List.mem_cons_of_mem _ h1, h2, h3⟩
    | some v =>
      rw [hF] at h
      rcases List.mem_cons.1 h with rfl | h
      · refine ⟨by simp, hF, ?_⟩
        cases b <;> simp
      · obtain ⟨h1, h2, h3⟩ := ih h
        exact ⟨List.mem_cons_of_mem _ h1, h2, h3⟩

theorem mkDirs_value {F : Fields} {names : List Str} (hd : names.Pairwise fun a b => lower a ≠ lower b) {n : Str} (hn : n ∈ names)
    (hv : ∀ v ∈ F n, v ≠ "\"\"".toList) (b : Bool) : dirValue (mkDirs F b names) n = F n := by
  induction hd generalizing b with
  | nil => cases hn
  | @cons m ms h1 _ ih =>
    simp only [mkDirs]
    rcases List.mem_cons.1 hn with rfl | hn'
    · cases hF : F n with
      | some v =>
        have := hv v hF
        simp only [dirValue]
        rw [List.find?_cons_of_pos (by simpa using this)]
        rfl
      | none =>
        have : ∀ (b : Bool) (ms : List Str), (∀ a ∈ ms, lower n ≠ lower a) → dirValue (mkDirs F b ms) n = none := by
          intro b ms hms
          simp only [dirValue, Option.map_eq_none_iff, List.find?_eq_none]
          intro d hd
          have := hms _ (mkDirs_mem hd).1
          simp [this]
        exact this b ms h1
    · have hne : lower n ≠ lower m := fun e => h1 n hn' e.symm
      cases hF : F m with
      | none => exact ih hn' b
      | some v =>
        simp only
        rw [← ih hn' false, dirValue, List.find?_cons_of_neg (by simp [hne])]
        rfl

/-- What is to be checked of a table and the order in which the fields are written. -/
structure GoodOrder (T : List (DirKind × Str)) (names : List Str) : Prop where
  table : GoodTable T
  distinct : names.Pairwise fun a b => lower a ≠ lower b
  mem : ∀ n ∈ names, n ∈ T.map (·.2)
  all : ∀ n ∈ T.map (·.2), n ∈ names
  longer : ∀ e ∈ T, e.1 = .token → ∀ n ∈ names, lower e.2 <+: lower n → lower e.2 = lower n
  two : ∀ n ∈ names, 2 ≤ n.length

theorem mkDirs_wf {T : List (DirKind × Str)} {names : List Str} (hg : GoodOrder T names) {F : Fields} (hF : WfFields T F) (b : Bool) :
    ∀ d ∈ mkDirs F b names, WfDirective T d := by
  intro d hd
  obtain ⟨h1, h2, h3⟩ := mkDirs_mem hd
  obtain ⟨e, he, hen⟩ := List.mem_map.1 (hg.mem _ h1)
  obtain ⟨k, n⟩ := e
  simp only at hen
  subst hen
  have hp := hg.table.plain _ he
  have hval := hF.value k d.name he d.value h2
  refine ⟨?_, hp, ?_, ?_, ?_, ?_⟩
  · rcases h3 with h | h <;> rw [h] <;> simp
  · cases k with
    | quoted => exact .inl hval.1
    | token => exact .inr hval.1
  · intro k' n' hk' hl
    have := table_unique hg.table.distinct hk' he hl
    cases this
    cases k with
    | quoted => exact hval.1
    | token => exact hval.1
  · intro n' hn' hpre
    exact hg.longer _ hn' rfl _ h1 hpre
  · have := hg.two _ h1
    cases k with
    | quoted =>
      obtain ⟨⟨body, _, _, hb⟩, hne⟩ := hval
      have : body ≠ [] := by
        rintro rfl
        exact hne hb
      have := List.length_pos_iff.2 this
      rw [hb]; simp; omega
    | token =>
      have := hval.2
      omega

theorem mkDirs_fields {T : List (DirKind × Str)} {names : List Str} (hg : GoodOrder T names) {F : Fields} (hF : WfFields T F) (b : Bool) :
    dirFields T (mkDirs F b names) = F := by
  funext n
  rw [dirFields]
  by_cases h : n ∈ T.map (·.2)
  · rw [if_pos h]
    refine mkDirs_value hg.distinct (hg.all n h) ?_ b
    intro v hv
    obtain ⟨e, he, hen⟩ := List.mem_map.1 h
    obtain ⟨k, m⟩ := e
    simp only at hen
    subst hen
    have := hF.value k m he v hv
    cases k with
    | quoted => exact this.2
    | token =>
      intro hq
      exact this.1.2.2.2.2.elim (fun h => h (by rw [hq]; decide)) (fun h => h.2 hq)
  · rw [if_neg h, hF.known n h]

theorem wf_set {T : List (DirKind × Str)} {names : List Str} (hg : GoodOrder T names) {F : Fields} (hF : WfFields T F) : ¬ NoneSet F names := by
  intro h
  obtain ⟨n, hn⟩ := hF.some
  by_cases hm : n ∈ T.map (·.2)
  · exact hn (h n (hg.all n hm))
  · exact hn (hF.known n hm)

def authNames : List Str := authTexts.map (·.1)
def wwwNames : List Str := wwwTexts.map (·.1)
def infoNames : List Str := infoTexts.map (·.1)

theorem auth_order : GoodOrder authTable authNames :=
  ⟨authTable_good, by decide +kernel, by decide +kernel, by decide +kernel, by decide +kernel, by decide +kernel⟩
theorem www_order : GoodOrder wwwTable wwwNames :=
  ⟨wwwTable_good, by decide +kernel, by decide +kernel, by decide +kernel, by decide +kernel, by decide +kernel⟩
theorem info_order : GoodOrder infoTable infoNames :=
  ⟨infoTable_good, by decide +kernel, by decide +kernel, by decide +kernel, by decide +kernel, by decide +kernel⟩

theorem authTexts_eq : authTexts = authNames.map fun n => (n, [' '] ++ n ++ ['=']) := by decide +kernel
theorem infoTexts_eq : infoTexts = infoNames.map fun n => (n, [] ++ n ++ ['=']) := by decide +kernel

theorem noneSet_map (F : Fields) (l : List (Str × Str)) : NoneSet F (l.map (·.1)) ↔ ∀ x ∈ l, F x.1 = none := by
  simp only [NoneSet, List.mem_map]
  constructor
  · intro h x hx
    exact h _ ⟨x, hx, rfl⟩
  · rintro h n ⟨x, hx, rfl⟩
    exact h x hx

/-- The bytes of the texts, each with a separator. -/
def textCounts (sep : Str) (l : List (Str × Str)) : List (Str × Nat) := l.map fun x => (x.1, x.2.length + sep.length)

theorem sepText_count (F : Fields) (sep : Str) (l : List (Str × Str)) : (sepText F sep l false).length = countFields F (textCounts sep l) := by
  rw [sepText_length, countFields_eq, textCounts, List.map_map]; rfl

theorem count_perm {F : Fields} {a b : List (Str × Nat)} (h : a.Perm b) : countFields F a = countFields F b := by
  rw [countFields_eq, countFields_eq]
  exact (h.map _).sum_nat

theorem count_cons (F : Fields) (n : Str) (c : Nat) (l : List (Str × Nat)) : countFields F ((n, c) :: l) = cnt F n c + countFields F l := by
  simp [countFields_eq]

theorem auth_counts : (textCounts ",".toList authTexts).Perm (("username".toList, 11) :: authCounts.tail) := by decide +kernel
theorem auth_counts' : authCounts = ("username".toList, 10) :: authCounts.tail := by decide +kernel
theorem www_counts : (textCounts [] wwwTexts).Perm wwwCounts := by decide +kernel
theorem info_counts : (textCounts ", ".toList infoTexts).Perm (("nextnonce".toList, 12) :: ("opaque".toList, 9) :: (infoCounts.drop 1).take 8) := by
  decide +kernel
theorem info_counts' : infoCounts.Perm (("nextnonce".toList, 11) :: ("opaque".toList, 8) :: (infoCounts.drop 1).take 8) := by
  decide +kernel

theorem cnt_more (F : Fields) (n : Str) (c : Nat) : cnt F n (c + 1) = cnt F n c + (if F n = none then 0 else 1) := by
  unfold cnt
  cases F n <;> simp; omega

theorem auth_room (F : Fields) : (sepText F ",".toList authTexts true).length ≤ countFields F authCounts := by
  by_cases h : ∀ x ∈ authTexts, F x.1 = none
  · rw [sepText_none h]; simp
  · have h1 := sepText_first F ",".toList authTexts h
    have h2 := sepText_count F ",".toList authTexts
    rw [h1, count_perm auth_counts, count_cons, cnt_more, List.length_append] at h2
    rw [auth_counts', count_cons]
    have : ",".toList.length = 1 := by decide
    split at h2 <;> omega

theorem authorization_text (t : Str) (F : Fields) :
    osip_authorization_to_str (some t) F = some (OSIP_SUCCESS, some (t ++ sepText F ",".toList authTexts true)) := by
  have hr := auth_room F
  simp only [osip_authorization_to_str]
  rw [put_fits (by simp; omega)]
  simp only [Option.bind_eq_bind, Option.bind_some, List.nil_append]
  by_cases h : ∀ x ∈ authTexts, F x.1 = none
  · rw [(sepAppend_eq F _ _ _ _ _).2 h, sepText_none h, List.append_nil]; rfl
  · rw [(sepAppend_eq F _ _ _ _ _).1 h, put_fits (by omega)]; rfl

/-- **C80**. An Authorization is written and read back. -/
theorem c80_authorization_round_trip {t : Str} (ht : t.Ok) (h0 : t ≠ []) (hsp : ' ' ∉ t) {F : Fields} (hF : WfFields authTable F) :
    ∃ text, osip_authorization_to_str (some t) F = some (OSIP_SUCCESS, some text) ∧
      ∀ r, osip_authorization_parse (text ++ NUL :: r) = some (OSIP_SUCCESS, some t, F) := by
  refine ⟨_, authorization_text t F, fun r => ?_⟩
  have hs := wf_set auth_order hF
  have := c80_authorization ht h0 hsp (mkDirs_ne hs true) (mkDirs_wf auth_order hF true) r
  rw [mkDirs_fields auth_order hF] at this
  rw [authTexts_eq, sepText_dirs F ",".toList [' '] (by decide) authNames hs]
  simpa using this

theorem wwwAppend_eq (F : Fields) (len : Nat) (l : List (Str × Str)) (buf : Str) : wwwAppend F len l buf = sepAppend F len [] l false buf := by
  induction l generalizing buf with
  | nil => rfl
  | cons x l ih =>
    obtain ⟨n, t⟩ := x
    simp only [wwwAppend, sepAppend]
    cases F n with
    | none => exact ih buf
    | some v =>
      simp only [Bool.false_eq_true, if_false, List.nil_append]
      cases put len buf (t ++ v) with
      | none => rfl
      | some b => exact ih b

theorem www_append (t : Str) (F : Fields) :
    wwwAppend F (t.length + 1 + 2 + countFields F wwwCounts) wwwTexts t = some (t ++ sepText F [] wwwTexts false) := by
  have hr := sepText_count F [] wwwTexts
  rw [count_perm www_counts] at hr
  rw [wwwAppend_eq]
  by_cases h : ∀ x ∈ wwwTexts, F x.1 = none
  · rw [(sepAppend_eq F _ _ _ _ _).2 h, sepText_none h, List.append_nil]
  · rw [(sepAppend_eq F _ _ _ _ _).1 h, put_fits (by omega)]

theorem wwwTexts_eq : wwwTexts = ("realm".toList, " realm=".toList) :: wwwNames.tail.map fun n => (n, [',', ' '] ++ n ++ ['=']) := by decide +kernel
theorem wwwNames_eq : wwwNames = "realm".toList :: wwwNames.tail := by decide +kernel

/-- **C80**. A WWW-Authenticate is written and read back. -/
theorem c80_www_authenticate_round_trip {t : Str} (ht : t.Ok) (h0 : t ≠ []) (hsp : ' ' ∉ t) {F : Fields} (hF : WfFields wwwTable F) :
    ∃ text, osip_www_authenticate_to_str (some t) F = some (OSIP_SUCCESS, some text) ∧
      ∀ r, osip_www_authenticate_parse (text ++ NUL :: r) = some (OSIP_SUCCESS, some t, F) := by
  have hs := wf_set www_order hF
  have key : ∃ b, osip_www_authenticate_to_str (some t) F = some (OSIP_SUCCESS, some (t ++ ' ' :: dirsText (mkDirs F b wwwNames))) := by
    simp only [osip_www_authenticate_to_str]
    rw [put_fits (by simp; omega)]
    simp only [Option.bind_eq_bind, Option.bind_some, List.nil_append, www_append]
    have hm := sepText_more F [] [',', ' '] rfl wwwNames.tail
    cases hR : F "realm".toList with
    | some v =>
      refine ⟨true, ?_⟩
      have e : sepText F [] wwwTexts false = ' ' :: dirsText (mkDirs F true wwwNames) := by
        rw [wwwTexts_eq, wwwNames_eq, sepText, mkDirs, hR]
        simp only [List.tail_cons]
        rw [hm, dirsText]
        simp [moreText, Directive.text]
      rw [e]
      rfl
    | none =>
      refine ⟨false, ?_⟩
      have e : sepText F [] wwwTexts false = ',' :: dirsText (mkDirs F false wwwNames) := by
        have hne := mkDirs_ne hs false
        have e1 : mkDirs F false wwwNames = mkDirs F false wwwNames.tail := by
          conv => lhs; rw [wwwNames_eq, mkDirs, hR]
        rw [e1] at hne ⊢
        rw [wwwTexts_eq, sepText, hR]
        simp only
        rw [hm]
        cases hl : mkDirs F false wwwNames.tail with
        | nil => exact absurd hl hne
        | cons d ds => simp [moreText, dirsText]
      rw [e]
      simp
  obtain ⟨b, hb⟩ := key
  refine ⟨_, hb, fun r => ?_⟩
  have := c80_www_authenticate ht h0 hsp (mkDirs_ne hs b) (mkDirs_wf www_order hF b) r
  rw [mkDirs_fields www_order hF] at this
  simpa using this

/-- **C80**. Writing these headers stays inside the block, whatever the fields are. -/
theorem c80_to_str_in_bounds (t : Option Str) (F : Fields) :
    (∃ res, osip_www_authenticate_to_str t F = some res) ∧ ∃ res, osip_authorization_to_str t F = some res := by
  cases t with
  | none => exact ⟨⟨_, rfl⟩, ⟨_, rfl⟩⟩
  | some t =>
    refine ⟨?_, ⟨_, authorization_text t F⟩⟩
    simp only [osip_www_authenticate_to_str]
    rw [put_fits (by simp; omega)]
    simp only [Option.bind_eq_bind, Option.bind_some, List.nil_append, www_append]
    exact ⟨_, rfl⟩

/-! ## C81 -/

/-- The names of the fields of an Authentication-Info. -/
def infoFields : List Str :=
  ["nextnonce", "qop", "rspauth", "cnonce", "nc", "snum", "srand", "targetname", "realm", "opaque"].map String.toList

theorem infoFields_iff (F : Fields) : (∀ n ∈ infoFields, F n = none) ↔ ∀ x ∈ infoTexts, F x.1 = none := by
  have h1 : ∀ n ∈ infoFields, n ∈ infoTexts.map (·.1) := by decide +kernel
  have h2 : ∀ n ∈ infoTexts.map (·.1), n ∈ infoFields := by decide +kernel
  constructor
  · intro h x hx
    exact h _ (h2 _ (List.mem_map.2 ⟨x, hx, rfl⟩))
  · intro h n hn
    obtain ⟨x, hx, rfl⟩ := List.mem_map.1 (h1 n hn)
    exact h x hx

theorem info_count_pos {F : Fields} (h : ¬ ∀ x ∈ infoTexts, F x.1 = none) : 0 < countFields F infoCounts := by
  have h1 : ∀ x ∈ infoTexts, ∃ c, (x.1, c + 1) ∈ infoCounts := by
    have : ∀ x ∈ infoTexts, ∃ y ∈ infoCounts, x.1 = y.1 ∧ 0 < y.2 := by decide +kernel
    intro x hx
    obtain ⟨y, hy, e, hp⟩ := this x hx
    refine ⟨y.2 - 1, ?_⟩
    have : (x.1, y.2 - 1 + 1) = y := by rw [Nat.sub_add_cancel hp, e]
    rw [this]; exact hy
  obtain ⟨x, hx, hF⟩ : ∃ x ∈ infoTexts, F x.1 ≠ none := by
    apply Classical.byContradiction
    intro hn
    apply h
    intro x hx
    apply Classical.byContradiction
    intro hf
    exact hn ⟨x, hx, hf⟩
  obtain ⟨c, hc⟩ := h1 x hx
  obtain ⟨a, b, e⟩ := List.append_of_mem hc
  rw [e, countFields_eq]
  simp only [List.map_append, List.map_cons, List.sum_append, List.sum_cons]
  have : 0 < cnt F x.1 (c + 1) := by
    unfold cnt
    cases hv : F x.1 with
    | none => exact absurd hv hF
    | some v => simp; omega
  omega

theorem info_out {F : Fields} (h : ¬ ∀ x ∈ infoTexts, F x.1 = none) :
    (sepText F ", ".toList infoTexts true).length + 2 = countFields F infoCounts + (if F "nextnonce".toList = none then 0 else 1) +
      (if F "opaque".toList = none then 0 else 1) := by
  have h2 := sepText_count F ", ".toList infoTexts
  rw [sepText_first F _ _ h, count_perm info_counts, count_cons, count_cons, cnt_more F _ 11, cnt_more F _ 8, List.length_append] at h2
  rw [count_perm info_counts', count_cons, count_cons]
  have : ", ".toList.length = 2 := by decide
  omega

/-- The scheme as it is written. -/
def schemeText (t : Option Str) : Str := match t with | none => [] | some t => t ++ [' ']

theorem info_text {t : Option Str} {F : Fields} (h : ¬ ∀ x ∈ infoTexts, F x.1 = none) :
    osip_authentication_info_to_str t F = (put ((schemeText t).length + countFields F infoCounts) (schemeText t) (sepText F ", ".toList infoTexts true)).map
      fun x => (OSIP_SUCCESS, some x) := by
  have hp := info_count_pos h
  unfold osip_authentication_info_to_str
  cases t with
  | none =>
    simp only [schemeText, List.length_nil, Nat.zero_add]
    rw [if_neg (by omega)]
    simp only [Option.bind_eq_bind, Option.bind_some]
    rw [(sepAppend_eq F _ _ _ _ _).1 h]
    cases put _ _ _ <;> rfl
  | some t =>
    simp only [schemeText, List.length_append, List.length_singleton]
    rw [if_neg (by omega)]
    rw [put_fits (by simp; omega)]
    simp only [Option.bind_eq_bind, Option.bind_some]
    rw [(sepAppend_eq F _ _ _ _ _).1 h]
    show _ = Option.map _ (put _ (t ++ [' ']) _)
    rw [show " ".toList = [' '] from by decide, List.nil_append]
    cases put _ _ _ <;> rfl

/-- **C81** does not hold: writing an Authentication-Info goes past the end of the block exactly if `nextnonce` and `opaque` are both set, or
a scheme is set and no field is. -/
theorem c81_violated (t : Option Str) (F : Fields) : osip_authentication_info_to_str t F = none ↔
    (F "nextnonce".toList ≠ none ∧ F "opaque".toList ≠ none) ∨ (t ≠ none ∧ ∀ n ∈ infoFields, F n = none) := by
  by_cases h : ∀ x ∈ infoTexts, F x.1 = none
  · have h' := (infoFields_iff F).2 h
    have hnn := h' "nextnonce".toList (by decide)
    have hc : countFields F infoCounts = 0 := by
      have h0 : ∀ y ∈ infoCounts, ∃ x ∈ infoTexts, x.1 = y.1 := by decide +kernel
      rw [countFields_eq]
      have : ∀ l : List (Str × Nat), (∀ y ∈ l, F y.1 = none) → (l.map fun x => cnt F x.1 x.2).sum = 0 := by
        intro l hl
        induction l with
        | nil => rfl
        | cons y l ih =>
          simp only [List.map_cons, List.sum_cons, cnt, hl y (by simp)]
          rw [Nat.zero_add]
          exact ih fun z hz => hl z (by simp [hz])
      refine this _ fun y hy => ?_
      obtain ⟨x, hx, e⟩ := h0 y hy
      rw [← e]; exact h x hx
    unfold osip_authentication_info_to_str
    rw [hc]
    cases t with
    | none =>
      simp only [hnn]
      rw [if_pos trivial]
      simp
    | some t =>
      have e : put (t.length + 1 + 0) [] (t ++ " ".toList) = none := by
        rw [put, if_neg (by simp)]
      simp only [e]
      rw [if_neg (by omega)]
      simp only [Option.bind_eq_bind, Option.bind_none, true_iff]
      exact Or.inr ⟨by simp, h'⟩
  · have h' : ¬ ∀ n ∈ infoFields, F n = none := fun e => h ((infoFields_iff F).1 e)
    rw [info_text h, Option.map_eq_none_iff, put]
    have ho := info_out h
    simp only [h', and_false, or_false]
    by_cases h1 : F "nextnonce".toList = none <;> by_cases h2 : F "opaque".toList = none <;>
      simp only [h1, h2, if_true, if_false, not_true_eq_false, not_false_eq_true, ne_eq, and_true, true_and, and_false, false_and, iff_false, iff_true, and_self] at ho ⊢
    · rw [if_pos (by simp only [List.length_append]; omega)]; simp
    · rw [if_pos (by simp only [List.length_append]; omega)]; simp
    · rw [if_pos (by simp only [List.length_append]; omega)]; simp
    · rw [if_neg (by simp only [List.length_append]; omega)]

/-- **C81** otherwise: an Authentication-Info is written and read back. Missing: `nextnonce` and `opaque` together, see `c81_violated`. -/
theorem c81_authentication_info_round_trip_partial {t : Option Str} (ht : ∀ x ∈ t, Str.Ok x ∧ ' ' ∉ x ∧ '=' ∉ x) {F : Fields}
    (hF : WfFields infoTable F) (hno : F "nextnonce".toList = none ∨ F "opaque".toList = none) :
    ∃ text, osip_authentication_info_to_str t F = some (OSIP_SUCCESS, some text) ∧
      ∀ r, osip_authentication_info_parse (text ++ NUL :: r) = some (OSIP_SUCCESS, t, F) := by
  have hs := wf_set info_order hF
  have h : ¬ ∀ x ∈ infoTexts, F x.1 = none := fun e => hs ((noneSet_map F infoTexts).2 e)
  have ho := info_out h
  refine ⟨schemeText t ++ sepText F ", ".toList infoTexts true, ?_, fun r => ?_⟩
  · rw [info_text h, put_fits]
    · rfl
    · rcases hno with hno | hno <;> rw [hno] at ho <;> simp only [if_true] at ho <;> split at ho <;> omega
  · have hne := mkDirs_ne hs true
    have hw := mkDirs_wf info_order hF true
    have hf := mkDirs_fields info_order hF true
    rw [infoTexts_eq, sepText_dirs F ", ".toList [] (by decide) infoNames hs]
    have hlead : ∀ d ds, mkDirs F true infoNames = d :: ds → d.lead = [] := by
      have : ∀ names d ds, mkDirs F true names = d :: ds → d.lead = [] := by
        intro names
        induction names with
        | nil => intro d ds h; cases h
        | cons n names ih =>
          intro d ds h
          simp only [mkDirs] at h
          cases hv : F n with
          | none => rw [hv] at h; exact ih d ds h
          | some v => rw [hv] at h; cases h; rfl
      exact this infoNames
    cases hd : mkDirs F true infoNames with
    | nil => exact absurd hd hne
    | cons d ds =>
      rw [hd] at hw hf
      have := c80_authentication_info ht (d := d) (ds := ds) (fun _ => hlead d ds hd) hw r
      rw [hf] at this
      rw [List.nil_append, List.append_assoc]
      cases t <;> exact this

/-- A challenge without a realm. -/
def strExample : Fields := fun n => if n = "nonce".toList then some "\"abc\"".toList else if n = "stale".toList then some "TRUE".toList else none

example : osip_www_authenticate_to_str (some "Digest".toList) strExample =
    some (OSIP_SUCCESS, some "Digest  nonce=\"abc\", stale=TRUE".toList) := by decide +kernel
example : osip_authorization_to_str (some "Digest".toList) strExample = some (OSIP_SUCCESS, some "Digest nonce=\"abc\"".toList) := by
  decide +kernel
example : (osip_authentication_info_parse ("nextnonce=\"a\", opaque=\"b\"".toList ++ [NUL])).bind
    (fun x => osip_authentication_info_to_str x.2.1 x.2.2) = none := by decide +kernel
example : (osip_authentication_info_parse ("Digest foo=barbarbar".toList ++ [NUL])).bind
    (fun x => osip_authentication_info_to_str x.2.1 x.2.2) = none := by decide +kernel
example : (osip_authentication_info_parse ("Digest opaque=\"b\"".toList ++ [NUL])).bind
    (fun x => osip_authentication_info_to_str x.2.1 x.2.2) = some (OSIP_SUCCESS, some "Digest opaque=\"b\"".toList) := by decide +kernel

end Osip
