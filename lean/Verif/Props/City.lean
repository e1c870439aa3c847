import Verif.City
import Verif.CityIndex
import Verif.FpLemmas
import Mathlib.Data.List.Infix
import Mathlib.Tactic.IntervalCases

/-!
# C50: places
-/

namespace Verif.City

open Verif.Fp

/-! ## Specification -/

/-- the code characters: `0-9`, `A-Z`, `a-z` stand for 0 … 61 -/
def codeValue (c : Char) : ℕ := if c.toNat ≤ 57 then c.toNat - 48 else if c.toNat ≤ 90 then c.toNat - 65 + 10 else c.toNat - 97 + 36

def IsCode (c : Char) : Prop := (48 ≤ c.toNat ∧ c.toNat ≤ 57) ∨ (65 ≤ c.toNat ∧ c.toNat ≤ 90) ∨ (97 ≤ c.toNat ∧ c.toNat ≤ 122)

instance (c : Char) : Decidable (IsCode c) := by unfold IsCode; infer_instance

/-- a Chinese character: three bytes in UTF-8 -/
def IsHan (c : Char) : Prop := 2048 ≤ c.toNat ∧ c.toNat < 65536

instance (c : Char) : Decidable (IsHan c) := by unfold IsHan; infer_instance

/-- the Chinese characters at the start of a name -/
def core (s : List Char) : List Char := s.takeWhile (fun c => decide (IsHan c))

/-- a name: 1 to 15 Chinese characters; one name of the table is followed by a tabulator -/
def IsName (s : List Char) : Prop := 1 ≤ (core s).length ∧ (core s).length ≤ 15 ∧ (s = core s ∨ s = core s ++ ['\t'])

instance (s : List Char) : Decidable (IsName s) := by unfold IsName; infer_instance

/-- well-formed places: four code characters and a name -/
def RecsWF (l : List (List Char × List Char)) : Prop := ∀ q ∈ l, (q.1.length = 4 ∧ ∀ c ∈ q.1, IsCode c) ∧ IsName q.2

instance (l : List (List Char × List Char)) : Decidable (RecsWF l) := by unfold RecsWF; infer_instance

/-- a well-formed row -/
def WF (r : Row) : Prop := (3 ≤ r.prov.length ∧ r.prov.length ≤ 15 ∧ ∀ c ∈ r.prov, IsHan c) ∧ r.recs.length ≤ 208 ∧ RecsWF r.recs

instance (r : Row) : Decidable (WF r) := by unfold WF; infer_instance

/-- a text without blanks, ASCII letters and digits -/
def Plain (s : List ℕ) : Prop := ∀ b ∈ s, b ≠ 32 ∧ isAlnum b = false

/-- every row of the built-in table is well formed -/
theorem table_wf : ∀ r ∈ rows, WF r := by decide +kernel

/-! ## Bytes -/

theorem utf8_han {c : Char} (h : IsHan c) : utf8 c = [224 + c.toNat / 4096, 128 + c.toNat / 64 % 64, 128 + c.toNat % 64] := by
  unfold utf8; simp only; rw [if_neg (by have := h.1; omega), if_neg (by have := h.1; omega), if_pos h.2]

theorem utf8_code {c : Char} (h : IsCode c) : utf8 c = [c.toNat] := by
  unfold utf8; simp only; rw [if_pos (by unfold IsCode at h; omega)]

theorem bytes_han {s : List Char} (h : ∀ c ∈ s, IsHan c) : ∀ b ∈ bytes s, 128 ≤ b := by
  intro b hb
  unfold bytes at hb
  obtain ⟨c, hc, hb⟩ := List.mem_flatMap.1 hb
  rw [utf8_han (h c hc)] at hb
  simp at hb
  omega

theorem bytes_han_length {s : List Char} (h : ∀ c ∈ s, IsHan c) : (bytes s).length = 3 * s.length := by
  induction s with
  | nil => rfl
  | cons c s ih =>
    have := ih (fun d hd => h d (by simp [hd]))
    unfold bytes at this ⊢
    rw [List.flatMap_cons, List.length_append, this, utf8_han (h c (by simp))]
    simp; ring

theorem bytes_append (s t : List Char) : bytes (s ++ t) = bytes s ++ bytes t := by simp [bytes]

theorem han_plain {s : List Char} (h : ∀ c ∈ s, IsHan c) : Plain (bytes s) := by
  intro b hb
  have := bytes_han h b hb
  refine ⟨by omega, ?_⟩
  rw [Bool.eq_false_iff]
  simp only [isAlnum, ne_eq, Bool.or_eq_true, Bool.and_eq_true, decide_eq_true_eq]; omega

theorem core_han (s : List Char) : ∀ c ∈ core s, IsHan c := by
  induction s with
  | nil => intro c hc; simp [core] at hc
  | cons d s ih =>
    intro c hc
    by_cases hd : IsHan d
    · have e : core (d :: s) = d :: core s := by unfold core; rw [List.takeWhile_cons_of_pos (by simpa using hd)]
      rw [e] at hc
      rcases List.mem_cons.1 hc with rfl | hc
      · exact hd
      · exact ih c hc
    · have e : core (d :: s) = [] := by unfold core; rw [List.takeWhile_cons_of_neg (by simpa using hd)]
      rw [e] at hc; simp at hc

theorem name_plain {s : List Char} (h : IsName s) : Plain (bytes s) := by
  obtain ⟨-, -, h | h⟩ := h
  · rw [h]; exact han_plain (core_han s)
  · rw [h, bytes_append]
    intro b hb
    rcases List.mem_append.1 hb with hb | hb
    · exact han_plain (core_han s) b hb
    · have : b = 9 := by simpa [bytes, utf8] using hb
      subst this; decide

theorem name_length {s : List Char} (h : IsName s) : 3 ≤ (bytes s).length ∧ (bytes s).length < 48 := by
  obtain ⟨h1, h2, h⟩ := h
  have hl := bytes_han_length (core_han s)
  rcases h with h | h
  · rw [h]; omega
  · rw [h, bytes_append, List.length_append]
    have : (bytes ['\t']).length = 1 := by decide
    omega

theorem bytes_code {s : List Char} (h : ∀ c ∈ s, IsCode c) : bytes s = s.map Char.toNat := by
  induction s with
  | nil => rfl
  | cons c s ih =>
    have := ih (fun d hd => h d (by simp [hd]))
    unfold bytes at this ⊢
    rw [List.flatMap_cons, this, utf8_code (h c (by simp))]
    rfl

theorem bytes_code_lt {s : List Char} (h : ∀ c ∈ s, IsCode c) : ∀ b ∈ bytes s, isAlnum b = true ∧ b ≠ 32 := by
  rw [bytes_code h]
  intro b hb
  obtain ⟨c, hc, rfl⟩ := List.mem_map.1 hb
  have := h c hc
  unfold IsCode at this
  unfold isAlnum
  refine ⟨?_, by omega⟩
  simp only [Bool.or_eq_true, Bool.and_eq_true, decide_eq_true_eq]
  omega

/-! ## The table of names -/

theorem fields_code (l rest : List ℕ) (j : ℕ) (cur : List ℕ) (acc : List (List ℕ)) (h : ∀ b ∈ l, isAlnum b = true ∧ b ≠ 32) :
    fieldsLoop (l ++ rest) j cur acc = fieldsLoop rest j cur acc := by
  induction l with
  | nil => rfl
  | cons b l ih =>
    obtain ⟨h1, h2⟩ := h b (by simp)
    rw [List.cons_append, fieldsLoop, if_neg h2, if_pos h1]
    exact ih (fun d hd => h d (by simp [hd]))

theorem fields_name (l rest : List ℕ) (j : ℕ) (hj : j < 210) (acc : List (List ℕ)) (h : Plain l) : ∀ cur : List ℕ, cur.length + l.length ≤ 48 →
    fieldsLoop (l ++ rest) j cur acc = fieldsLoop rest j (cur ++ l) acc := by
  induction l with
  | nil => intro cur _; simp
  | cons b l ih =>
    intro cur hc
    have hb := h b (by simp)
    simp only [List.length_cons] at hc
    rw [List.cons_append, fieldsLoop, if_neg hb.1, if_neg (by rw [hb.2]; simp), if_pos ⟨hj, by omega⟩, ih (fun d hd => h d (by simp [hd])) _ (by simp; omega)]
    simp

theorem fields_recs : ∀ (l : List (List Char × List Char)) (j : ℕ) (cur : List ℕ) (acc : List (List ℕ)),
    RecsWF l → j + l.length < 210 →
    fieldsLoop (encRecs l) j cur acc = some (acc ++ cur :: l.map (fun q => bytes q.2)) := by
  intro l
  induction l with
  | nil => intro j cur acc _ _; simp [encRecs, fieldsLoop]
  | cons q l ih =>
    intro j cur acc h hl
    obtain ⟨⟨c1, c2⟩, n3⟩ := h q (by simp)
    simp only [List.length_cons] at hl
    have e : encRecs (q :: l) = 32 :: (bytes q.1 ++ (bytes q.2 ++ encRecs l)) := by simp [encRecs]
    rw [e, fieldsLoop, if_pos rfl, fields_code _ _ _ _ _ (bytes_code_lt c2),
      fields_name _ _ _ (by omega) _ (name_plain n3) [] (by have := (name_length n3).2; simp; omega), List.nil_append, ih _ _ _ (fun p hp => h p (by simp [hp])) (by omega)]
    simp

/-- **C50 (names).**  For every row the name table `ch[i]` is built inside its bounds and consists of the province and the names of the places, in order; every name leaves room for its
terminating zero, and the row has an empty entry after its last name. -/
theorem c50_names (r : Row) (h : WF r) : fields (cstr r) = some (bytes r.prov :: r.recs.map (fun q => bytes q.2)) ∧ r.recs.length + 1 < 210 ∧ (bytes r.prov).length < 48 ∧
    ∀ q ∈ r.recs, (bytes q.2).length < 48 := by
  obtain ⟨⟨p1, p2, p3⟩, h2, h3⟩ := h
  refine ⟨?_, by omega, by rw [bytes_han_length p3]; omega, fun q hq => (name_length (h3 q hq).2).2⟩
  unfold fields cstr
  rw [fields_name _ _ _ (by omega) _ (han_plain p3) [] (by rw [bytes_han_length p3]; simp; omega), List.nil_append, fields_recs _ _ _ _ h3 (by omega)]
  simp

/-! ## The search -/

theorem strstr_skip1 {b : ℕ} {t s : List ℕ} (h : ¬ s <+: b :: t) : strstr (b :: t) s = (strstr t s).map (· + 1) := by
  rw [strstr, if_neg (by rw [List.isPrefixOf_iff_prefix]; exact h)]

theorem strstr_hit {t s : List ℕ} (h : s <+: t) : strstr t s = some 0 := by
  cases t with
  | nil => rw [strstr, if_pos (List.prefix_nil.1 h)]
  | cons b t => rw [strstr, if_pos (by rw [List.isPrefixOf_iff_prefix]; exact h)]

/-- skipping a part in which no match starts -/
theorem strstr_skip (A rest s : List ℕ) (h : ∀ k < A.length, ¬ s <+: (A ++ rest).drop k) : strstr (A ++ rest) s = (strstr rest s).map (· + A.length) := by
  induction A with
  | nil => simp
  | cons a A ih =>
    have h0 := h 0 (by simp)
    rw [List.drop_zero] at h0
    rw [List.cons_append] at h0 ⊢
    rw [strstr_skip1 h0, ih (fun k hk => by have := h (k + 1) (by simp; omega); simpa using this)]
    cases strstr rest s <;> simp [Nat.add_assoc]

/-- a separating byte: a blank or a code character -/
def Sep (b : ℕ) : Prop := b = 32 ∨ isAlnum b = true

/-- a match of a plain text does not start in a separator -/
theorem no_match_sep {A rest s : List ℕ} (hs : s ≠ []) (hs2 : Plain s) (hA : ∀ b ∈ A, Sep b) : ∀ k < A.length, ¬ s <+: (A ++ rest).drop k := by
  intro k hk hp
  obtain ⟨x, s', rfl⟩ := List.exists_cons_of_ne_nil hs
  rw [List.drop_append_of_le_length hk.le, List.drop_eq_getElem_cons hk, List.cons_append, List.cons_prefix_cons] at hp
  have h1 := hA _ (List.getElem_mem hk)
  have h2 := hs2 x (by simp)
  rw [hp.1] at h2
  rcases h1 with h1 | h1
  · exact h2.1 h1
  · rw [h1] at h2; exact absurd h2.2 (by simp)

/-- a match of a plain text that starts in a part followed by a separator lies inside that part -/
theorem no_match_part {A rest s : List ℕ} (hs2 : Plain s) (hr : rest = [] ∨ ∃ x t, rest = x :: t ∧ x = 32) (hA : ¬ s <:+: A) : ∀ k < A.length, ¬ s <+: (A ++ rest).drop k := by
  intro k hk hp
  rw [List.drop_append_of_le_length hk.le] at hp
  apply hA
  have hsuf : A.drop k <:+ A := List.drop_suffix _ _
  rcases hr with rfl | ⟨x, t, rfl, hx⟩
  · rw [List.append_nil] at hp
    exact hp.isInfix.trans hsuf.isInfix
  · by_cases hl : s.length ≤ (A.drop k).length
    · have : s <+: A.drop k := List.prefix_of_prefix_length_le hp (List.prefix_append _ _) hl
      exact this.isInfix.trans hsuf.isInfix
    · exfalso
      obtain ⟨u, hu⟩ := hp
      have hlen : (A.drop k).length < s.length := by omega
      have hx' : s[(A.drop k).length]'hlen = x := by
        have e := congrArg (fun l => l[(A.drop k).length]?) hu
        rw [List.getElem?_append_left hlen, List.getElem?_append_right le_rfl, Nat.sub_self, List.getElem?_cons_zero, List.getElem?_eq_getElem hlen] at e
        exact Option.some.inj e
      have := hs2 _ (List.getElem_mem hlen)
      rw [hx'] at this
      exact this.1 hx

theorem encRecs_head (l : List (List Char × List Char)) : encRecs l = [] ∨ ∃ x t, encRecs l = x :: t ∧ x = 32 := by
  cases l with
  | nil => left; rfl
  | cons q l => right; exact ⟨32, bytes q.1 ++ bytes q.2 ++ encRecs l, by simp [encRecs], rfl⟩

/-- places whose names do not contain the text are skipped -/
theorem strstr_recs (s : List ℕ) (hs : s ≠ []) (hs2 : Plain s) : ∀ (ra rb : List (List Char × List Char)), RecsWF ra → (∀ q ∈ ra, ¬ s <:+: bytes q.2) →
    strstr (encRecs (ra ++ rb)) s = (strstr (encRecs rb) s).map (· + (encRecs ra).length) := by
  intro ra
  induction ra with
  | nil => intro rb _ _; simp [encRecs]
  | cons q ra ih =>
    intro rb h1 h2
    obtain ⟨⟨-, c2⟩, -⟩ := h1 q (by simp)
    have e : encRecs (q :: ra ++ rb) = (32 :: bytes q.1) ++ (bytes q.2 ++ encRecs (ra ++ rb)) := by simp [encRecs]
    have e2 : (encRecs (q :: ra)).length = (encRecs ra).length + (bytes q.2).length + (32 :: bytes q.1).length := by simp [encRecs]; ring
    rw [e, strstr_skip _ _ _ (no_match_sep hs hs2 (fun b hb => by
        rcases List.mem_cons.1 hb with rfl | hb
        · exact Or.inl rfl
        · exact Or.inr (bytes_code_lt c2 b hb).1)),
      strstr_skip _ _ _ (no_match_part hs2 (encRecs_head _) (h2 q (by simp))), ih rb (fun p hp => h1 p (by simp [hp])) (fun p hp => h2 p (by simp [hp])), e2]
    cases strstr (encRecs rb) s <;> simp [Nat.add_assoc]

/-- the text searched in a row -/
theorem cstr_drop (r : Row) (h : WF r) : (cstr r).drop 8 = (bytes r.prov).drop 8 ++ encRecs r.recs := by
  unfold cstr
  rw [List.drop_append_of_le_length (by rw [bytes_han_length h.1.2.2]; have := h.1.1; omega)]

theorem strstr_row (r : Row) (h : WF r) (s : List ℕ) (hs : s ≠ []) (hs2 : Plain s) (hp : ¬ s <:+: (bytes r.prov).drop 8) :
    strstr ((cstr r).drop 8) s = (strstr (encRecs r.recs) s).map (· + ((bytes r.prov).drop 8).length) := by
  rw [cstr_drop r h, strstr_skip _ _ _ (no_match_part hs2 (encRecs_head _) hp)]

theorem strstr_nil (s : List ℕ) (hs : s ≠ []) : strstr [] s = none := by rw [strstr, if_neg hs]

/-- the text does not occur in a row: neither in the searched part of the province nor in a name -/
def Absent (s : List ℕ) (r : Row) : Prop := ¬ s <:+: (bytes r.prov).drop 8 ∧ ∀ q ∈ r.recs, ¬ s <:+: bytes q.2

theorem row_miss (r : Row) (h : WF r) (s : List ℕ) (hs : s ≠ []) (hs2 : Plain s) (ha : Absent s r) : strstr ((cstr r).drop 8) s = none := by
  rw [strstr_row r h s hs hs2 ha.1]
  have := strstr_recs s hs hs2 r.recs [] (fun q hq => h.2.2 q hq) ha.2
  rw [List.append_nil] at this
  rw [this]
  simp [encRecs, strstr_nil s hs]

/-- the first hit in a row: in the name `u ++ s ++ v`, after `u` -/
theorem row_hit (r : Row) (h : WF r) (s : List ℕ) (hs : s ≠ []) (hs2 : Plain s) (hp : ¬ s <:+: (bytes r.prov).drop 8)
    (ra rb : List (List Char × List Char)) (code name : List Char) (hr : r.recs = ra ++ (code, name) :: rb) (hra : ∀ q ∈ ra, ¬ s <:+: bytes q.2)
    (u v : List ℕ) (hn : bytes name = u ++ s ++ v) (hu : ∀ k < u.length, ¬ s <+: (bytes name).drop k) :
    ∃ k, strstr ((cstr r).drop 8) s = some k ∧ (cstr r).drop (k + 8 - 4) = (bytes code ++ u).drop u.length ++ (s ++ v ++ encRecs rb) ∧ 4 ≤ k + 8 := by
  have hwf : RecsWF r.recs := fun q hq => h.2.2 q hq
  have hwa : RecsWF ra := fun q hq => hwf q (by rw [hr]; simp [hq])
  obtain ⟨⟨c1, c2⟩, n3⟩ := hwf (code, name) (by rw [hr]; simp)
  simp only at c1 c2 n3
  have hcl : (bytes code).length = 4 := by rw [bytes_code c2]; simpa using c1
  have e : encRecs ((code, name) :: rb) = (32 :: bytes code) ++ (bytes name ++ encRecs rb) := by simp [encRecs]
  have skipU : strstr (bytes name ++ encRecs rb) s = some u.length := by
    rw [hn, List.append_assoc, List.append_assoc, strstr_skip u _ s, strstr_hit (List.prefix_append _ _)]
    · simp
    · intro k hk hc
      have hin : ∀ k < (bytes name).length, s <+: (bytes name ++ encRecs rb).drop k → s <+: (bytes name).drop k := by
        intro k hk hc
        rw [List.drop_append_of_le_length hk.le] at hc
        by_cases hl : s.length ≤ ((bytes name).drop k).length
        · exact List.prefix_of_prefix_length_le hc (List.prefix_append _ _) hl
        · exfalso
          rcases encRecs_head rb with he | ⟨x, t, he, hx⟩
          · rw [he, List.append_nil] at hc; exact hl hc.length_le
          · rw [he] at hc
            obtain ⟨w, hw⟩ := hc
            have hlen : ((bytes name).drop k).length < s.length := by omega
            have hx' : s[((bytes name).drop k).length]'hlen = x := by
              have e := congrArg (fun l => l[((bytes name).drop k).length]?) hw
              rw [List.getElem?_append_left hlen, List.getElem?_append_right le_rfl, Nat.sub_self, List.getElem?_cons_zero, List.getElem?_eq_getElem hlen] at e
              exact Option.some.inj e
            have := hs2 _ (List.getElem_mem hlen)
            rw [hx'] at this
            exact this.1 hx
      have hk' : k < (bytes name).length := by rw [hn]; simp; omega
      refine hu k hk (hin k hk' ?_)
      rw [hn]
      simpa [List.append_assoc] using hc
  have hst : strstr ((cstr r).drop 8) s = some (u.length + (32 :: bytes code).length + (encRecs ra).length + ((bytes r.prov).drop 8).length) := by
    rw [strstr_row r h s hs hs2 hp, hr, strstr_recs s hs hs2 ra _ hwa hra, e, strstr_skip (32 :: bytes code) _ _ (no_match_sep hs hs2 (fun b hb => by
        rcases List.mem_cons.1 hb with rfl | hb
        · exact Or.inl rfl
        · exact Or.inr (bytes_code_lt c2 b hb).1)), skipU]
    simp
  refine ⟨_, hst, ?_, by omega⟩
  have hpl : 9 ≤ (bytes r.prov).length := by rw [bytes_han_length h.1.2.2]; have := h.1.1; omega
  have hlen : u.length + (32 :: bytes code).length + (encRecs ra).length + ((bytes r.prov).drop 8).length + 8 - 4
      = (bytes r.prov ++ encRecs ra ++ [32]).length + u.length := by
    simp only [List.length_cons, List.length_append, List.length_drop, List.length_nil, hcl]; omega
  have hc : cstr r = (bytes r.prov ++ encRecs ra ++ [32]) ++ ((bytes code ++ u) ++ (s ++ v ++ encRecs rb)) := by
    unfold cstr
    rw [hr]
    simp [encRecs, hn, List.append_assoc]
  rw [hlen, hc, ← List.drop_drop, List.drop_left, List.drop_append_of_le_length (by simp)]

/-- the pairs of text and province name handed to the search -/
def search (rs : List Row) : List (List ℕ × List ℕ) := rs.map (fun r => (cstr r, bytes r.prov))

theorem lookup_skip (pre : List Row) (rest : List (List ℕ × List ℕ)) (s : List ℕ) (hs : s ≠ []) (hs2 : Plain s) (hw : ∀ r ∈ pre, WF r) (ha : ∀ r ∈ pre, Absent s r) :
    lookup (search pre ++ rest) s = lookup rest s := by
  induction pre with
  | nil => rfl
  | cons r pre ih =>
    rw [search, List.map_cons, List.cons_append, lookup, row_miss r (hw r (by simp)) s hs hs2 (ha r (by simp))]
    exact ih (fun q hq => hw q (by simp [hq])) (fun q hq => ha q (by simp [hq]))

/-! ## Decoding -/

theorem decode_code {c : Char} (h : IsCode c) : decode1 c.toNat = codeValue c := by
  unfold decode1 sc codeValue wrap
  unfold IsCode at h
  obtain ⟨n, hn⟩ : ∃ n, n = c.toNat := ⟨_, rfl⟩
  rw [← hn] at h ⊢
  simp only [if_neg (show ¬ 128 ≤ n by omega)]
  rcases h with h | h | h
  · rw [if_neg (by omega), if_neg (by omega), if_pos (by omega)]; omega
  · rw [if_neg (by omega), if_pos (by omega), if_neg (by omega), if_pos (by omega)]; omega
  · rw [if_pos (by omega), if_neg (by omega), if_neg (by omega)]; omega

theorem codeValue_lt {c : Char} (h : IsCode c) : codeValue c < 62 := by
  unfold codeValue; unfold IsCode at h; split_ifs <;> omega

/-- the code characters in order — lat_lon_data.cpp:14 -/
def alphabet : List Char := ['0','1','2','3','4','5','6','7','8','9','A','B','C','D','E','F','G','H','I','J','K','L','M','N','O','P','Q','R','S','T','U','V','W','X','Y','Z',
  'a','b','c','d','e','f','g','h','i','j','k','l','m','n','o','p','q','r','s','t','u','v','w','x','y','z']

/-- **C50 (codec).**  Every number from 0 to 61 has exactly one code character, and it decodes to that number. -/
theorem c50_codec : (∀ n : ℕ, n < 62 → ∃ c, IsCode c ∧ decode1 c.toNat = n) ∧ ∀ c d, IsCode c → IsCode d → decode1 c.toNat = decode1 d.toNat → c = d := by
  constructor
  · intro n hn
    have key : ∀ n < 62, IsCode (alphabet.getD n 'x') ∧ decode1 (alphabet.getD n 'x').toNat = (n : ℤ) := by decide +kernel
    exact ⟨_, key n hn⟩
  · intro c d hc hd h
    rw [decode_code hc, decode_code hd] at h
    have e : codeValue c = codeValue d := by exact_mod_cast h
    apply Char.toNat_inj.1
    unfold codeValue at e
    unfold IsCode at hc hd
    split_ifs at e <;> omega

/-- the coordinates of a code, exactly: latitude degrees, minutes, longitude degrees over 73, minutes -/
def exactLat (code : List Char) : ℚ := codeValue (code.getD 0 '0') + codeValue (code.getD 1 '0') / 60
def exactLon (code : List Char) : ℚ := 73 + codeValue (code.getD 2 '0') + codeValue (code.getD 3 '0') / 60

theorem lat_close {a b : ℕ} (ha : a < 62) (hb : b < 62) : |lat a b - ((a : ℚ) + b / 60)| ≤ 1 / 10 ^ 12 := by
  unfold lat
  have ha' : (a : ℚ) ≤ 61 := by exact_mod_cast Nat.lt_succ_iff.1 ha
  have hb' : (b : ℚ) ≤ 61 := by exact_mod_cast Nat.lt_succ_iff.1 hb
  have ha0 : (0 : ℚ) ≤ a := by positivity
  have hb0 : (0 : ℚ) ≤ b := by positivity
  have e1 := rnd_err1 (q := ((b : ℤ) : ℚ) / 60) (B := 2) (by rw [abs_le]; push_cast; constructor <;> linarith) (by norm_num)
  have f1 := abs_le.1 e1
  have e2 := rnd_err1 (q := ((a : ℤ) : ℚ) + rnd (((b : ℤ) : ℚ) / 60)) (B := 64) (by rw [abs_le]; push_cast at f1 ⊢; constructor <;> linarith) (by norm_num)
  have f2 := abs_le.1 e2
  rw [abs_le]
  push_cast at f1 f2 ⊢
  constructor <;> linarith

theorem lon_close {a b : ℕ} (ha : a < 62) (hb : b < 62) : |lon a b - (73 + (a : ℚ) + b / 60)| ≤ 1 / 10 ^ 12 := by
  have h := abs_le.1 (lat_close ha hb)
  unfold lat at h
  unfold lon
  have ha' : (a : ℚ) ≤ 61 := by exact_mod_cast Nat.lt_succ_iff.1 ha
  have hb' : (b : ℚ) ≤ 61 := by exact_mod_cast Nat.lt_succ_iff.1 hb
  have ha0 : (0 : ℚ) ≤ a := by positivity
  have hb0 : (0 : ℚ) ≤ b := by positivity
  have e1 := rnd_err1 (q := ((b : ℤ) : ℚ) / 60) (B := 2) (by rw [abs_le]; push_cast; constructor <;> linarith) (by norm_num)
  have f1 := abs_le.1 e1
  have e2 := rnd_err1 (q := ((a : ℤ) : ℚ) + rnd (((b : ℤ) : ℚ) / 60)) (B := 64) (by rw [abs_le]; push_cast at f1 ⊢; constructor <;> linarith) (by norm_num)
  have f2 := abs_le.1 e2
  have e3 := rnd_err1 (q := rnd (((a : ℤ) : ℚ) + rnd (((b : ℤ) : ℚ) / 60)) + 73) (B := 138) (by rw [abs_le]; push_cast at h ⊢; constructor <;> linarith) (by norm_num)
  have f3 := abs_le.1 e3
  rw [abs_le]
  push_cast at f1 f2 f3 ⊢
  constructor <;> linarith

/-- `p` is the place of the record with this code: its coordinates to 10⁻¹² degrees, its province and the text searched for -/
def IsPlace (p : Place) (code : List Char) (prov str : List ℕ) : Prop :=
  |p.J - exactLon code| ≤ 1 / 10 ^ 12 ∧ |p.W - exactLat code| ≤ 1 / 10 ^ 12 ∧ p.s = prov ∧ p.x = str

theorem placeOf_code {code : List Char} (hl : code.length = 4) (hc : ∀ c ∈ code, IsCode c) (prov str : List ℕ) :
    ∃ p, placeOf (bytes code) prov str = some p ∧ IsPlace p code prov str := by
  obtain ⟨a, b, c, d, rfl⟩ : ∃ a b c d, code = [a, b, c, d] := by
    match code, hl with
    | [a, b, c, d], _ => exact ⟨a, b, c, d, rfl⟩
  have ha := hc a (by simp)
  have hb := hc b (by simp)
  have hc' := hc c (by simp)
  have hd := hc d (by simp)
  rw [bytes_code hc]
  refine ⟨⟨lon (codeValue c) (codeValue d), lat (codeValue a) (codeValue b), prov, str⟩, ?_, ?_, ?_, rfl, rfl⟩
  · simp [placeOf, decode_code ha, decode_code hb, decode_code hc', decode_code hd]
  · exact lon_close (codeValue_lt hc') (codeValue_lt hd)
  · exact lat_close (codeValue_lt ha) (codeValue_lt hb)

/-! ## Theorems about the search -/

/-- **C50 (search).**  Searching for a text without blanks, ASCII letters and digits in a well-formed table: if the first record (in table order) whose name contains the text starts with it, and the
text does not occur in the searched part of an earlier province name or of its own, the result is that record's place. -/
theorem c50_search (pre post : List Row) (r : Row) (hw : ∀ q ∈ pre ++ r :: post, WF q) (s : List ℕ) (hs : s ≠ []) (hs2 : Plain s) (hpre : ∀ q ∈ pre, Absent s q)
    (hp : ¬ s <:+: (bytes r.prov).drop 8) (ra rb : List (List Char × List Char)) (code name : List Char) (hr : r.recs = ra ++ (code, name) :: rb)
    (hra : ∀ q ∈ ra, ¬ s <:+: bytes q.2) (hn : s <+: bytes name) :
    ∃ p, lookup (search (pre ++ r :: post)) s = some p ∧ IsPlace p code (bytes r.prov) s := by
  have hwr := hw r (by simp)
  obtain ⟨v, hv⟩ := hn
  obtain ⟨k, k1, k2, -⟩ := row_hit r hwr s hs hs2 hp ra rb code name hr hra [] v (by rw [List.nil_append]; exact hv.symm) (fun k hk => by simp at hk)
  obtain ⟨⟨c1, c2⟩, -⟩ := hwr.2.2 (code, name) (by rw [hr]; simp)
  obtain ⟨p, p1, p2⟩ := placeOf_code c1 c2 (bytes r.prov) s
  refine ⟨p, ?_, p2⟩
  have hcl : (bytes code).length = 4 := by rw [bytes_code c2]; simpa using c1
  have e : search (pre ++ r :: post) = search pre ++ (cstr r, bytes r.prov) :: search post := by simp [search]
  rw [e, lookup_skip pre _ s hs hs2 (fun q hq => hw q (by simp [hq])) hpre, lookup, k1]
  simp only
  rw [k2, List.append_nil, List.length_nil, List.drop_zero, ← hcl, List.take_left]
  exact p1

/-- **C50 (absent).**  A text that occurs in no searched part gives the default place. -/
theorem c50_absent (rs : List Row) (hw : ∀ q ∈ rs, WF q) (s : List ℕ) (hs : s ≠ []) (hs2 : Plain s) (ha : ∀ q ∈ rs, Absent s q) : lookup (search rs) s = some default := by
  have := lookup_skip rs [] s hs hs2 hw ha
  rw [List.append_nil] at this
  rw [this, lookup]

theorem utf8_inj {c d : Char} (hc : IsHan c) (hd : IsHan d) (h : utf8 c = utf8 d) : c = d := by
  rw [utf8_han hc, utf8_han hd] at h
  simp only [List.cons.injEq, and_true] at h
  apply Char.toNat_inj.1
  omega

theorem prefix_chars : ∀ {n m : List Char}, (∀ c ∈ n, IsHan c) → (∀ c ∈ m, IsHan c) → bytes n <+: bytes m → n <+: m := by
  intro n
  induction n with
  | nil => intro m _ _ _; exact List.nil_prefix
  | cons c n ih =>
    intro m hn hm h
    have e : bytes (c :: n) = utf8 c ++ bytes n := by simp [bytes]
    cases m with
    | nil =>
      rw [e, utf8_han (hn c (by simp))] at h
      simp [bytes] at h
    | cons d m =>
      have e2 : bytes (d :: m) = utf8 d ++ bytes m := by simp [bytes]
      have h1 := hn c (by simp)
      have h2 := hm d (by simp)
      have hu : utf8 c = utf8 d := by
        rw [e, e2, utf8_han h1, utf8_han h2] at h
        simp only [List.cons_append, List.nil_append, List.cons_prefix_cons] at h
        rw [utf8_han h1, utf8_han h2, h.1, h.2.1, h.2.2.1]
      have hcd := utf8_inj h1 h2 hu
      subst hcd
      rw [e, e2, List.prefix_append_right_inj] at h
      rw [List.cons_prefix_cons]
      exact ⟨rfl, ih (fun x hx => hn x (by simp [hx])) (fun x hx => hm x (by simp [hx])) h⟩

/-- UTF-8 text occurs in UTF-8 text only at character boundaries -/
theorem infix_chars {n m : List Char} (hne : n ≠ []) (hn : ∀ c ∈ n, IsHan c) (hm : ∀ c ∈ m, IsHan c) (h : bytes n <:+: bytes m) : n <:+: m := by
  obtain ⟨c, n', rfl⟩ := List.exists_cons_of_ne_nil hne
  have hb : ∀ (b : ℕ) (l : List ℕ), b < 224 → ¬ bytes (c :: n') <+: b :: l := by
    intro b l hb hp
    have e : bytes (c :: n') = utf8 c ++ bytes n' := by simp [bytes]
    rw [e, utf8_han (hn c (by simp)), List.cons_append, List.cons_prefix_cons] at hp
    omega
  induction m with
  | nil =>
    have := List.infix_nil.1 h
    rw [show bytes (c :: n') = utf8 c ++ bytes n' by simp [bytes], utf8_han (hn c (by simp))] at this
    simp at this
  | cons d m ih =>
    have hd := hm d (by simp)
    have e2 : bytes (d :: m) = (224 + d.toNat / 4096) :: (128 + d.toNat / 64 % 64) :: (128 + d.toNat % 64) :: bytes m := by
      rw [show bytes (d :: m) = utf8 d ++ bytes m by simp [bytes], utf8_han hd]; rfl
    rw [e2] at h
    rcases List.infix_cons_iff.1 h with h | h
    · rw [← e2] at h
      exact (prefix_chars hn hm h).isInfix
    rcases List.infix_cons_iff.1 h with h | h
    · exact absurd h (hb _ _ (by omega))
    rcases List.infix_cons_iff.1 h with h | h
    · exact absurd h (hb _ _ (by omega))
    exact (ih (fun x hx => hm x (by simp [hx])) h).trans (List.suffix_cons d m).isInfix

/-- occurrence of a Chinese text in a name -/
theorem infix_name {n m : List Char} (hne : n ≠ []) (hn : ∀ c ∈ n, IsHan c) (hm : IsName m) (h : bytes n <:+: bytes m) : n <:+: core m := by
  obtain ⟨-, -, e | e⟩ := hm
  · rw [e] at h; exact infix_chars hne hn (core_han m) h
  · rw [e, bytes_append, show bytes ['\t'] = [9] by decide] at h
    refine infix_chars hne hn (core_han m) ?_
    obtain ⟨u, v, huv⟩ := h
    rcases List.eq_nil_or_concat v with rfl | ⟨v', x, rfl⟩
    · exfalso
      rw [List.append_nil] at huv
      have hb : bytes n ≠ [] := by
        obtain ⟨c, n', rfl⟩ := List.exists_cons_of_ne_nil hne
        rw [show bytes (c :: n') = utf8 c ++ bytes n' by simp [bytes], utf8_han (hn c (by simp))]; simp
      have h1 := congrArg List.getLast? huv
      rw [List.getLast?_append_of_ne_nil _ hb, List.getLast?_concat] at h1
      have h2 := bytes_han hn 9 (List.mem_of_getLast? h1)
      omega
    · rw [List.concat_eq_append, ← List.append_assoc] at huv
      have := (List.append_inj' huv rfl).1
      exact ⟨u, v', this⟩

/-- occurrence of a Chinese text in the searched part of a province -/
theorem infix_prov {n : List Char} {prov : List Char} (hl : 3 ≤ prov.length) (hp : ∀ c ∈ prov, IsHan c) (hne : n ≠ []) (hn : ∀ c ∈ n, IsHan c) (h : bytes n <:+: (bytes prov).drop 8) :
    n <:+: prov.drop 3 := by
  match prov, hl with
  | x :: y :: z :: p, _ =>
    have hx := hp x (by simp)
    have hy := hp y (by simp)
    have hz := hp z (by simp)
    have e : (bytes (x :: y :: z :: p)).drop 8 = (128 + z.toNat % 64) :: bytes p := by
      rw [show bytes (x :: y :: z :: p) = utf8 x ++ (utf8 y ++ (utf8 z ++ bytes p)) by simp [bytes], utf8_han hx, utf8_han hy, utf8_han hz]; rfl
    rw [e] at h
    rcases List.infix_cons_iff.1 h with h | h
    · exfalso
      obtain ⟨c, n', rfl⟩ := List.exists_cons_of_ne_nil hne
      rw [show bytes (c :: n') = utf8 c ++ bytes n' by simp [bytes], utf8_han (hn c (by simp)), List.cons_append, List.cons_prefix_cons] at h
      omega
    · show n <:+: p
      exact infix_chars hne hn (m := p) (fun c hc => hp c (by simp [hc])) h

/-! ## Which names occur earlier: an index of the names -/

/-- the places whose name occurs in an earlier text of the table: row number (from 0) and place number (from 1) -/
def shadowed : List (ℕ × ℕ) := [(2, 106), (3, 61), (4, 78), (6, 10), (6, 12), (8, 34), (8, 35), (8, 69), (8, 70), (8, 72), (8, 104), (8, 127), (9, 18), (9, 33), (9, 87), (9, 110), (10, 56), (10, 60), (10, 61), (11, 116), (12, 83), (12, 110), (12, 112), (13, 14), (13, 47), (14, 19), (14, 36), (14, 117), (15, 21), (16, 8), (16, 20), (16, 21), (16, 31), (16, 36), (16, 44), (16, 108), (17, 30), (20, 35), (20, 37), (20, 56), (20, 60), (20, 155), (21, 14), (21, 15), (21, 18), (21, 19), (21, 20), (21, 28), (21, 29), (21, 30), (21, 48), (21, 52), (21, 57), (21, 72), (21, 101), (21, 121), (22, 20), (22, 23), (22, 41), (22, 42), (22, 70), (23, 18), (24, 23), (24, 35), (24, 61), (24, 63), (24, 136), (24, 144), (24, 159), (24, 162), (24, 181), (24, 190), (25, 9), (25, 10), (26, 10), (26, 66), (26, 74), (27, 16), (27, 18), (28, 17), (28, 95), (29, 6), (29, 79), (30, 3), (30, 9), (30, 32)]


/-- the value stored with a key, 0 if there is none -/
def Idx.find : Idx → ℕ → ℕ
  | .leaf, _ => 0
  | .node k v l r, x => bif Nat.beq x k then v else bif Nat.blt x k then l.find x else r.find x

/-- a text as a number -/
def key (n : List Char) : ℕ := n.foldl (fun h c => h * 65536 + c.toNat) 0

/-- every text that follows `h` in `s` is stored with at most `P` -/
def okFrom (P : ℕ) : ℕ → List Char → Bool
  | _, [] => true
  | h, c :: s => Nat.ble (idx.find (h * 65536 + c.toNat)) P && okFrom P (h * 65536 + c.toNat) s

/-- every text contained in `m` is stored with at most `P` -/
def okText (P : ℕ) : List Char → Bool
  | [] => true
  | c :: m => okFrom P 0 (c :: m) && okText P m

/-- the checks of the places of row `i`, from place `j + 1` -/
def okRecs (i : ℕ) : ℕ → List (List Char × List Char) → Bool
  | _, [] => true
  | j, q :: l => okText (1000 * i + (j + 1)) (core q.2) && (Nat.beq (idx.find (key (core q.2))) (1000 * i + (j + 1)) || shadowed.contains (i, j + 1)) && okRecs i (j + 1) l

/-- the checks of row `i` -/
def okRow (i : ℕ) (r : Row) : Bool := okText (1000 * i) (r.prov.drop 3) && okRecs i 0 r.recs

theorem row0_ok : okRow 0 row0 = true := by decide +kernel
theorem row1_ok : okRow 1 row1 = true := by decide +kernel
theorem row2_ok : okRow 2 row2 = true := by decide +kernel
theorem row3_ok : okRow 3 row3 = true := by decide +kernel
theorem row4_ok : okRow 4 row4 = true := by decide +kernel
theorem row5_ok : okRow 5 row5 = true := by decide +kernel
theorem row6_ok : okRow 6 row6 = true := by decide +kernel
theorem row7_ok : okRow 7 row7 = true := by decide +kernel
theorem row8_ok : okRow 8 row8 = true := by decide +kernel
theorem row9_ok : okRow 9 row9 = true := by decide +kernel
theorem row10_ok : okRow 10 row10 = true := by decide +kernel
theorem row11_ok : okRow 11 row11 = true := by decide +kernel
theorem row12_ok : okRow 12 row12 = true := by decide +kernel
theorem row13_ok : okRow 13 row13 = true := by decide +kernel
theorem row14_ok : okRow 14 row14 = true := by decide +kernel
theorem row15_ok : okRow 15 row15 = true := by decide +kernel
theorem row16_ok : okRow 16 row16 = true := by decide +kernel
theorem row17_ok : okRow 17 row17 = true := by decide +kernel
theorem row18_ok : okRow 18 row18 = true := by decide +kernel
theorem row19_ok : okRow 19 row19 = true := by decide +kernel
theorem row20_ok : okRow 20 row20 = true := by decide +kernel
theorem row21_ok : okRow 21 row21 = true := by decide +kernel
theorem row22_ok : okRow 22 row22 = true := by decide +kernel
theorem row23_ok : okRow 23 row23 = true := by decide +kernel
theorem row24_ok : okRow 24 row24 = true := by decide +kernel
theorem row25_ok : okRow 25 row25 = true := by decide +kernel
theorem row26_ok : okRow 26 row26 = true := by decide +kernel
theorem row27_ok : okRow 27 row27 = true := by decide +kernel
theorem row28_ok : okRow 28 row28 = true := by decide +kernel
theorem row29_ok : okRow 29 row29 = true := by decide +kernel
theorem row30_ok : okRow 30 row30 = true := by decide +kernel
theorem row31_ok : okRow 31 row31 = true := by decide +kernel

theorem rows_ok (i : ℕ) (r : Row) (h : rows[i]? = some r) : okRow i r = true := by
  have hi : i < 32 := lt_of_lt_of_eq (List.getElem?_eq_some_iff.1 h).1 rfl
  interval_cases i
  · obtain rfl : row0 = r := Option.some.inj h
    exact row0_ok
  · obtain rfl : row1 = r := Option.some.inj h
    exact row1_ok
  · obtain rfl : row2 = r := Option.some.inj h
    exact row2_ok
  · obtain rfl : row3 = r := Option.some.inj h
    exact row3_ok
  · obtain rfl : row4 = r := Option.some.inj h
    exact row4_ok
  · obtain rfl : row5 = r := Option.some.inj h
    exact row5_ok
  · obtain rfl : row6 = r := Option.some.inj h
    exact row6_ok
  · obtain rfl : row7 = r := Option.some.inj h
    exact row7_ok
  · obtain rfl : row8 = r := Option.some.inj h
    exact row8_ok
  · obtain rfl : row9 = r := Option.some.inj h
    exact row9_ok
  · obtain rfl : row10 = r := Option.some.inj h
    exact row10_ok
  · obtain rfl : row11 = r := Option.some.inj h
    exact row11_ok
  · obtain rfl : row12 = r := Option.some.inj h
    exact row12_ok
  · obtain rfl : row13 = r := Option.some.inj h
    exact row13_ok
  · obtain rfl : row14 = r := Option.some.inj h
    exact row14_ok
  · obtain rfl : row15 = r := Option.some.inj h
    exact row15_ok
  · obtain rfl : row16 = r := Option.some.inj h
    exact row16_ok
  · obtain rfl : row17 = r := Option.some.inj h
    exact row17_ok
  · obtain rfl : row18 = r := Option.some.inj h
    exact row18_ok
  · obtain rfl : row19 = r := Option.some.inj h
    exact row19_ok
  · obtain rfl : row20 = r := Option.some.inj h
    exact row20_ok
  · obtain rfl : row21 = r := Option.some.inj h
    exact row21_ok
  · obtain rfl : row22 = r := Option.some.inj h
    exact row22_ok
  · obtain rfl : row23 = r := Option.some.inj h
    exact row23_ok
  · obtain rfl : row24 = r := Option.some.inj h
    exact row24_ok
  · obtain rfl : row25 = r := Option.some.inj h
    exact row25_ok
  · obtain rfl : row26 = r := Option.some.inj h
    exact row26_ok
  · obtain rfl : row27 = r := Option.some.inj h
    exact row27_ok
  · obtain rfl : row28 = r := Option.some.inj h
    exact row28_ok
  · obtain rfl : row29 = r := Option.some.inj h
    exact row29_ok
  · obtain rfl : row30 = r := Option.some.inj h
    exact row30_ok
  · obtain rfl : row31 = r := Option.some.inj h
    exact row31_ok

theorem okFrom_sound (P : ℕ) : ∀ (s : List Char) (h : ℕ), okFrom P h s = true → ∀ n, n <+: s → n ≠ [] → idx.find (n.foldl (fun h c => h * 65536 + c.toNat) h) ≤ P := by
  intro s
  induction s with
  | nil => intro h _ n hn hne; exact absurd (List.prefix_nil.1 hn) hne
  | cons c s ih =>
    intro h hok n hn hne
    obtain ⟨d, n, rfl⟩ := List.exists_cons_of_ne_nil hne
    rw [List.cons_prefix_cons] at hn
    obtain ⟨rfl, hn⟩ := hn
    rw [okFrom, Bool.and_eq_true] at hok
    by_cases h0 : n = []
    · subst h0
      exact Nat.le_of_ble_eq_true hok.1
    · exact ih _ hok.2 n hn h0

theorem okText_sound (P : ℕ) : ∀ (m : List Char), okText P m = true → ∀ n, n <:+: m → n ≠ [] → idx.find (key n) ≤ P := by
  intro m
  induction m with
  | nil => intro _ n hn hne; exact absurd (List.infix_nil.1 hn) hne
  | cons c m ih =>
    intro hok n hn hne
    rw [okText, Bool.and_eq_true] at hok
    rcases List.infix_cons_iff.1 hn with hn | hn
    · exact okFrom_sound P _ 0 hok.1 n hn hne
    · exact ih hok.2 n hn hne

theorem okRecs_sound (i : ℕ) : ∀ (ra rb : List (List Char × List Char)) (q : List Char × List Char) (j : ℕ), okRecs i j (ra ++ q :: rb) = true →
    okText (1000 * i + (j + ra.length + 1)) (core q.2) = true ∧ (idx.find (key (core q.2)) = 1000 * i + (j + ra.length + 1) ∨ (i, j + ra.length + 1) ∈ shadowed) := by
  intro ra
  induction ra with
  | nil =>
    intro rb q j h
    rw [List.nil_append, okRecs, Bool.and_eq_true, Bool.and_eq_true, Bool.or_eq_true] at h
    refine ⟨h.1.1, h.1.2.imp Nat.eq_of_beq_eq_true ?_⟩
    intro h; simpa using h
  | cons a ra ih =>
    intro rb q j h
    rw [List.cons_append, okRecs, Bool.and_eq_true] at h
    have := ih rb q (j + 1) h.2
    rw [show j + 1 + ra.length + 1 = j + (a :: ra).length + 1 by simp; ring] at this
    exact this

/-- a name outside `shadowed` occurs in no text searched before it -/
theorem fresh_sound {pre post : List Row} {r : Row} (he : rows = pre ++ r :: post) {ra rb : List (List Char × List Char)} {code name : List Char} (hr : r.recs = ra ++ (code, name) :: rb)
    (hf : (pre.length, ra.length + 1) ∉ shadowed) :
    (∀ q ∈ pre, Absent (bytes name) q) ∧ ¬ bytes name <:+: (bytes r.prov).drop 8 ∧ ∀ q ∈ ra, ¬ bytes name <:+: bytes q.2 := by
  have hw : ∀ q ∈ pre ++ r :: post, WF q := by rw [← he]; exact table_wf
  have hwr := hw r (by simp)
  obtain ⟨-, hname⟩ := hwr.2.2 (code, name) (by rw [hr]; simp)
  have hcne : core name ≠ [] := by have := hname.1; intro h; simp only at this; rw [h] at this; simp at this
  have hcb : bytes (core name) <:+: bytes name := by
    obtain ⟨-, -, e | e⟩ := hname
    · rw [← e]
    · exact ⟨[], bytes ['\t'], by rw [List.nil_append, ← bytes_append, ← e]⟩
  have hok := rows_ok pre.length r (by rw [he, List.getElem?_append_right le_rfl]; simp)
  rw [okRow, Bool.and_eq_true, hr] at hok
  have hfind : idx.find (key (core name)) = 1000 * pre.length + (ra.length + 1) := by
    have := (okRecs_sound pre.length ra rb (code, name) 0 hok.2).2
    rw [Nat.zero_add] at this
    exact this.resolve_right hf
  refine ⟨fun q hq => ?_, fun h => ?_, fun q hq h => ?_⟩
  · obtain ⟨p1, p2, hp⟩ := List.append_of_mem hq
    have hwq := hw q (by simp [hq])
    have hokq := rows_ok p1.length q (by rw [he, hp, List.append_assoc, List.getElem?_append_right le_rfl]; simp)
    have hlen : p1.length < pre.length := by rw [hp]; simp
    rw [okRow, Bool.and_eq_true] at hokq
    refine ⟨fun h => ?_, fun p hpm h => ?_⟩
    · have := okText_sound _ _ hokq.1 _ (infix_prov hwq.1.1 hwq.1.2.2 hcne (core_han name) (hcb.trans h)) hcne
      omega
    · obtain ⟨q1, q2, hq2⟩ := List.append_of_mem hpm
      have h1 := hokq.2
      rw [hq2] at h1
      have := okText_sound _ _ (okRecs_sound p1.length q1 q2 p 0 h1).1 _ (infix_name hcne (core_han name) (hwq.2.2 p hpm).2 (hcb.trans h)) hcne
      have hl := hwq.2.1
      rw [hq2] at hl
      simp only [List.length_append, List.length_cons] at hl
      omega
  · have := okText_sound _ _ hok.1 _ (infix_prov hwr.1.1 hwr.1.2.2 hcne (core_han name) (hcb.trans h)) hcne
    omega
  · obtain ⟨q1, q2, hq2⟩ := List.append_of_mem hq
    have h1 := hok.2
    rw [hq2, List.append_assoc, List.cons_append] at h1
    have := okText_sound _ _ (okRecs_sound pre.length q1 _ q 0 h1).1 _ (infix_name hcne (core_han name) (hwr.2.2 q (by rw [hr]; simp [hq])).2 (hcb.trans h)) hcne
    have hl : ra.length = q1.length + (q2.length + 1) := by rw [hq2]; simp
    omega

/-! ## The menu -/

theorem mapM_some {α β : Type} (f : α → Option β) (g : α → β) : ∀ (l : List α), (∀ a ∈ l, f a = some (g a)) → l.mapM f = some (l.map g) := by
  intro l
  induction l with
  | nil => intro _; rfl
  | cons a l ih =>
    intro h
    rw [List.mapM_cons, h a (by simp), ih (fun b hb => h b (by simp [hb]))]
    rfl

/-- `position` on a well-formed table -/
theorem position_eq (rs : List Row) (hw : ∀ r ∈ rs, WF r) (num num0 : ℤ) (typed : List ℕ) :
    position rs num num0 typed = (query (rs.map (fun r => bytes r.prov :: r.recs.map (fun q => bytes q.2))) num num0 typed).bind (fun s => lookup (search rs) s) := by
  unfold position
  rw [mapM_some _ (fun r => bytes r.prov :: r.recs.map (fun q => bytes q.2)) rs (fun r hr => (c50_names r (hw r hr)).1)]
  simp only [Option.bind_eq_bind, Option.bind_some]
  have e : (rs.map cstr).zip ((rs.map (fun r => bytes r.prov :: r.recs.map (fun q => bytes q.2))).map (fun row => row.getD 0 [])) = search rs := by
    unfold search
    rw [List.map_map, List.zip_map']
    rfl
  rw [e]

/-- **C50 (menu, any table).**  Choosing province `i+1` and place `j+1` in a well-formed table of at most 32 rows returns the coordinates of that place if its name does not occur in an earlier text. -/
theorem c50_menu_general (pre post : List Row) (r : Row) (hw : ∀ q ∈ pre ++ r :: post, WF q) (hlen : pre.length < 32) (ra rb : List (List Char × List Char)) (code name : List Char)
    (hr : r.recs = ra ++ (code, name) :: rb) (h1 : ∀ q ∈ pre, Absent (bytes name) q) (h2 : ¬ bytes name <:+: (bytes r.prov).drop 8) (h3 : ∀ q ∈ ra, ¬ bytes name <:+: bytes q.2) (typed : List ℕ) :
    ∃ p, position (pre ++ r :: post) (pre.length + 1) (ra.length + 1) typed = some p ∧ IsPlace p code (bytes r.prov) (bytes name) := by
  have hwr := hw r (by simp)
  obtain ⟨-, hname⟩ := hwr.2.2 (code, name) (by rw [hr]; simp)
  have hne : bytes name ≠ [] := by have := (name_length hname).1; intro h; simp only at this; rw [h] at this; simp at this
  obtain ⟨p, p1, p2⟩ := c50_search pre post r hw (bytes name) hne (name_plain hname) h1 h2 ra rb code name hr h3 (List.prefix_refl _)
  refine ⟨p, ?_, p2⟩
  rw [position_eq _ hw]
  have hrl : ra.length + 1 ≤ 208 := by have := hwr.2.1; rw [hr] at this; simp at this; omega
  have hg : ((pre ++ r :: post).map (fun r => bytes r.prov :: r.recs.map (fun q => bytes q.2)))[pre.length]? = some (bytes r.prov :: r.recs.map (fun q => bytes q.2)) := by
    rw [List.getElem?_map, List.getElem?_append_right le_rfl]; simp
  have hq : query ((pre ++ r :: post).map (fun r => bytes r.prov :: r.recs.map (fun q => bytes q.2))) (pre.length + 1) (ra.length + 1) typed = some (bytes name) := by
    unfold query
    rw [if_neg (by omega), if_pos (by omega), if_neg (by omega), show ((pre.length : ℤ) + 1 - 1).toNat = pre.length by omega, hg]
    simp only [Option.bind_eq_bind, Option.bind_some]
    rw [if_neg (by simp only [List.length_cons, List.length_map]; have := hwr.2.1; omega), if_neg (by omega), if_pos (by omega), show ((ra.length : ℤ) + 1).toNat = ra.length + 1 by omega, hr]
    congr 1
    rw [List.getD_eq_getElem?_getD, List.getElem?_cons_succ, List.getElem?_map, List.getElem?_append_right le_rfl]
    simp
  rw [hq, Option.bind_some]
  exact p1

/-- **C50 (menu).**  In the built-in table, for each of the 32 provinces and each of its places except the 86 listed in `shadowed`, choosing them from the menus returns the coordinates of that place. -/
theorem c50_menu (i j : ℕ) (r : Row) (code name : List Char) (hi : rows[i]? = some r) (hj : r.recs[j]? = some (code, name)) (hn : (i, j + 1) ∉ shadowed) (typed : List ℕ) :
    ∃ p, position rows (i + 1) (j + 1) typed = some p ∧ IsPlace p code (bytes r.prov) (bytes name) := by
  have hil : i < 32 := by
    have := (List.getElem?_eq_some_iff.1 hi).1
    exact lt_of_lt_of_eq this rfl
  obtain ⟨pre, post, e, hpl⟩ : ∃ pre post, rows = pre ++ r :: post ∧ pre.length = i := by
    obtain ⟨h1, h2⟩ := List.getElem?_eq_some_iff.1 hi
    exact ⟨rows.take i, rows.drop (i + 1), by rw [← h2, List.getElem_cons_drop, List.take_append_drop], by rw [List.length_take]; omega⟩
  obtain ⟨ra, rb, e2, hrl⟩ : ∃ ra rb, r.recs = ra ++ (code, name) :: rb ∧ ra.length = j := by
    obtain ⟨h1, h2⟩ := List.getElem?_eq_some_iff.1 hj
    exact ⟨r.recs.take j, r.recs.drop (j + 1), by rw [← h2, List.getElem_cons_drop, List.take_append_drop], by rw [List.length_take]; omega⟩
  have hw : ∀ q ∈ pre ++ r :: post, WF q := by rw [← e]; exact table_wf
  obtain ⟨h1, h2, h3⟩ := fresh_sound e e2 (by rw [hpl, hrl]; exact hn)
  have := c50_menu_general pre post r hw (by omega) ra rb code name e2 h1 h2 h3 typed
  rw [e, ← hpl, ← hrl]
  exact this

/-- **C50 (hit inside a name).**  If the first occurrence of the text in the table lies inside a name, after its first `u` (at least one Chinese character), the four characters in front of it are not
a code: the result has the text as its name but a longitude with minutes outside 0 … 59. -/
theorem c50_inner (pre post : List Row) (r : Row) (hw : ∀ q ∈ pre ++ r :: post, WF q) (s : List ℕ) (hs : s ≠ []) (hs2 : Plain s) (hpre : ∀ q ∈ pre, Absent s q)
    (hp : ¬ s <:+: (bytes r.prov).drop 8) (ra rb : List (List Char × List Char)) (code name : List Char) (hr : r.recs = ra ++ (code, name) :: rb)
    (hra : ∀ q ∈ ra, ¬ s <:+: bytes q.2) (u : List Char) (hu : u ≠ []) (hu2 : ∀ c ∈ u, IsHan c) (v : List ℕ) (hn : bytes name = bytes u ++ s ++ v)
    (hfirst : ∀ k < (bytes u).length, ¬ s <+: (bytes name).drop k) :
    ∃ p deg min, lookup (search (pre ++ r :: post)) s = some p ∧ p.x = s ∧ p.J = lon deg min ∧ (min ≤ -113 ∨ 80 ≤ min) := by
  have hwr := hw r (by simp)
  obtain ⟨k, k1, k2, -⟩ := row_hit r hwr s hs hs2 hp ra rb code name hr hra (bytes u) v hn hfirst
  obtain ⟨⟨c1, c2⟩, -⟩ := hwr.2.2 (code, name) (by rw [hr]; simp)
  have hcl : (bytes code).length = 4 := by rw [bytes_code c2]; simpa using c1
  obtain ⟨u', c, rfl⟩ : ∃ u' c, u = u' ++ [c] := ⟨u.dropLast, u.getLast hu, (List.dropLast_append_getLast hu).symm⟩
  have hc := hu2 c (by simp)
  have hlast : bytes (u' ++ [c]) = (bytes u' ++ [224 + c.toNat / 4096, 128 + c.toNat / 64 % 64]) ++ [128 + c.toNat % 64] := by
    rw [bytes_append, show bytes [c] = utf8 c by simp [bytes], utf8_han hc]; simp
  obtain ⟨w, hwd⟩ : ∃ w, w = (bytes code ++ bytes (u' ++ [c])).drop (bytes (u' ++ [c])).length := ⟨_, rfl⟩
  have hwl : w.length = 4 := by rw [hwd]; simp [hcl]
  have hw3 : w[3]? = some (128 + c.toNat % 64) := by
    rw [hwd, List.getElem?_drop, List.getElem?_append_right (by rw [hcl, hlast]; simp), hcl, hlast,
      List.getElem?_append_right (by simp)]
    simp
  rw [← hwd] at k2
  obtain ⟨a, b, d, e, rfl⟩ : ∃ a b d e, w = [a, b, d, e] := by
    match w, hwl with
    | [a, b, d, e], _ => exact ⟨a, b, d, e, rfl⟩
  have he : e = 128 + c.toNat % 64 := by simpa using hw3
  refine ⟨⟨lon (decode1 d) (decode1 e), lat (decode1 a) (decode1 b), bytes r.prov, s⟩, decode1 d, decode1 e, ?_, rfl, rfl, ?_⟩
  · have e2 : search (pre ++ r :: post) = search pre ++ (cstr r, bytes r.prov) :: search post := by simp [search]
    rw [e2, lookup_skip pre _ s hs hs2 (fun q hq => hw q (by simp [hq])) hpre, lookup, k1]
    simp only
    rw [k2]
    simp [placeOf]
  · obtain ⟨x, hx⟩ : ∃ x, x = c.toNat % 64 := ⟨_, rfl⟩
    have hx2 : x < 64 := by rw [hx]; exact Nat.mod_lt _ (by norm_num)
    rw [← hx] at he
    subst he
    unfold decode1 sc wrap
    simp only [if_pos (show 128 ≤ 128 + x by omega)]
    rw [if_neg (by push_cast; omega), if_neg (by push_cast; omega)]
    push_cast
    omega

/-- **C50 (defect).**  Choosing 鞍山市 in the menu (province 17, place 8) finds the name inside 马鞍山市 of an earlier province and returns a place far from the one chosen. -/
theorem c50_defect : ∃ r q, rows[16]? = some r ∧ r.recs[7]? = some q ∧ q.2 = ['鞍', '山', '市'] ∧
    ∃ p, position rows 17 8 [] = some p ∧ p.x = bytes q.2 ∧ 180 < p.J ∧ exactLon q.1 < 123 := by
  refine ⟨row16, (['f', '6', 'n', 'x'], ['鞍', '山', '市']), rfl, by decide +kernel, rfl, ?_⟩
  have h : (lookup (search rows) (bytes ['鞍', '山', '市'])).any (fun p => decide (p.x = bytes ['鞍', '山', '市'] ∧ 180 < p.J)) = true := by decide +kernel
  have hq : query (rows.map (fun r => bytes r.prov :: r.recs.map (fun q => bytes q.2))) 17 8 [] = some (bytes ['鞍', '山', '市']) := by decide +kernel
  rw [position_eq _ table_wf, hq, Option.bind_some]
  match hl : lookup (search rows) (bytes ['鞍', '山', '市']) with
  | none => rw [hl] at h; simp at h
  | some p =>
    rw [hl, Option.any_some, decide_eq_true_eq] at h
    exact ⟨p, rfl, h.1, h.2, by decide +kernel⟩

/-- the hypotheses of `c50_menu` are met by the first place of the first province, 天安门 -/
example (typed : List ℕ) : ∃ p, position rows 1 1 typed = some p ∧ IsPlace p ['d', 's', 'h', 'N'] (bytes row0.prov) (bytes ['天', '安', '门']) :=
  c50_menu 0 0 row0 ['d', 's', 'h', 'N'] ['天', '安', '门'] rfl (by decide +kernel) (by decide) typed

/-- **C50 (range).**  Every place of the built-in table lies between 18° and 54° north and between 75° and 135.1° east. -/
theorem c50_range : ∀ r ∈ rows, ∀ q ∈ r.recs, 18 ≤ exactLat q.1 ∧ exactLat q.1 < 54 ∧ 75 ≤ exactLon q.1 ∧ exactLon q.1 < 1351 / 10 := by
  have key : ∀ r ∈ rows, ∀ q ∈ r.recs, 18 ≤ codeValue (q.1.getD 0 '0') ∧ codeValue (q.1.getD 0 '0') * 60 + codeValue (q.1.getD 1 '0') < 3240 ∧ 2 ≤ codeValue (q.1.getD 2 '0') ∧
      codeValue (q.1.getD 2 '0') * 60 + codeValue (q.1.getD 3 '0') < 3726 := by decide +kernel
  intro r hr q hq
  obtain ⟨a, b, c, d⟩ := key r hr q hq
  unfold exactLat exactLon
  obtain ⟨w, hw⟩ : ∃ w, w = codeValue (q.1.getD 0 '0') := ⟨_, rfl⟩
  obtain ⟨x, hx⟩ : ∃ x, x = codeValue (q.1.getD 1 '0') := ⟨_, rfl⟩
  obtain ⟨y, hy⟩ : ∃ y, y = codeValue (q.1.getD 2 '0') := ⟨_, rfl⟩
  obtain ⟨z, hz⟩ : ∃ z, z = codeValue (q.1.getD 3 '0') := ⟨_, rfl⟩
  rw [← hw, ← hx] at b
  rw [← hw] at a
  rw [← hy] at c
  rw [← hy, ← hz] at d
  rw [← hw, ← hx, ← hy, ← hz]
  have a' : (18 : ℚ) ≤ w := by exact_mod_cast a
  have b' : (w : ℚ) * 60 + x < 3240 := by exact_mod_cast b
  have c' : (2 : ℚ) ≤ y := by exact_mod_cast c
  have d' : (y : ℚ) * 60 + z < 3726 := by exact_mod_cast d
  have x0 : (0 : ℚ) ≤ x := by positivity
  have z0 : (0 : ℚ) ≤ z := by positivity
  refine ⟨by linarith, by linarith, by linarith, by linarith⟩

/-- **C50 (inputs).**  A province number over 32 searches for an uninitialised text, a negative one reads outside the name table, and so does a place number outside 0 … 209; the others are served. -/
theorem c50_inputs (ch : List (List (List ℕ))) (hl : ch.length = 32) (hr : ∀ row ∈ ch, row.length < 210) (num num0 : ℤ) (typed : List ℕ) :
    (32 < num ∨ num < 0 → query ch num num0 typed = none) ∧
    (1 ≤ num ∧ num ≤ 32 → (num0 < 0 ∨ 210 ≤ num0) → query ch num num0 typed = none) ∧
    (0 ≤ num ∧ num ≤ 32 → 0 ≤ num0 ∧ num0 < 210 → typed.length < 48 → ∃ s, query ch num num0 typed = some s) := by
  refine ⟨fun h => ?_, fun h h0 => ?_, fun h h0 ht => ?_⟩
  · unfold query
    rw [if_neg (by omega)]
    by_cases h1 : num < 33
    · rw [if_pos h1, if_pos (by omega)]
    · rw [if_neg h1]
  · unfold query
    rw [if_neg (by omega), if_pos (by omega), if_neg (by omega)]
    have hg : ch[(num - 1).toNat]? = some (ch[(num - 1).toNat]'(by omega)) := List.getElem?_eq_getElem _
    rw [hg]
    simp only [Option.bind_eq_bind, Option.bind_some]
    split_ifs <;> first | rfl | omega
  · unfold query
    by_cases hz : num = 0
    · rw [if_pos hz, if_pos ht]; exact ⟨_, rfl⟩
    rw [if_neg hz, if_pos (by omega), if_neg (by omega)]
    have hg : ch[(num - 1).toNat]? = some (ch[(num - 1).toNat]'(by omega)) := List.getElem?_eq_getElem _
    rw [hg]
    simp only [Option.bind_eq_bind, Option.bind_some]
    rw [if_neg (by have := hr _ (List.getElem_mem (l := ch) (n := (num - 1).toNat) (by omega)); omega)]
    split_ifs <;> exact ⟨_, rfl⟩

end Verif.City
