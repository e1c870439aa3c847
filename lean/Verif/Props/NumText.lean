import Verif.NumText
import Verif.ItoaLemmas

/-! # C26, C27, C28, C30: integers to text and back -/

namespace Verif.Itoa

/-- value range of an integer type of `w` bits -/
def IntType (w : ℕ) (signed : Bool) (i : ℤ) : Prop :=
  (w = 8 ∨ w = 16 ∨ w = 32 ∨ w = 64) ∧
    (if signed then -2^(w-1) ≤ i ∧ i < 2^(w-1) else 0 ≤ i ∧ i < 2^w)

theorem toText_reduce (w : ℕ) (sg : Bool) (i : ℤ) (h : IntType w sg i) (buf : Buf) (b : ℤ) :
    i.natAbs < 2^64 ∧ toText w i buf b = if i < 0 then (put1 buf b '-').bind (fun buf => toTextU w i.natAbs buf (b + 1)) else toTextU w i.natAbs buf b := by
  obtain ⟨hw, hr⟩ := h
  have : (i < 0 → ((0 - i % 2^w) % 2^w).toNat = i.natAbs) ∧ (¬ i < 0 → (i % 2^w).toNat = i.natAbs) ∧ i.natAbs < 2^64 := by
    rcases hw with rfl | rfl | rfl | rfl <;> cases sg <;> simp at hr <;> omega
  refine ⟨this.2.2, ?_⟩
  unfold toText
  split_ifs with hc
  · rw [this.1 hc]; rfl
  · rw [this.2.1 hc]

theorem decimal_ne (i : ℤ) : 1 ≤ (decimal i).length := by
  unfold decimal
  have := Nat.length_toDigits_pos (b := 10) (n := i.natAbs)
  split_ifs <;> simp <;> omega

/-- C26: for every value of every 8/16/32/64-bit signed or unsigned type, writing at the start of any buffer of at least
21 bytes produces exactly the ordinary decimal representation; the returned end offset is its length (at most 20);
the only other byte ever changed is the one directly behind a one-digit number, which becomes NUL. -/
theorem c26_toText (w : ℕ) (signed : Bool) (i : ℤ) (h : IntType w signed i) (buf : Buf) (hb : 21 ≤ buf.length) :
    ∃ buf', toText w i buf 0 = some (buf', ((decimal i).length : ℤ)) ∧ (decimal i).length ≤ 20 ∧
      buf'.length = buf.length ∧ buf'.take (decimal i).length = decimal i ∧
      buf' = decimal i ++ (if i.natAbs < 10 then '\x00' :: buf.drop ((decimal i).length + 1) else buf.drop (decimal i).length) := by
  have hlt := (toText_reduce w signed i h buf 0).1
  have core : ∀ pre post : List Char, pre.length = (if i < 0 then 1 else 0) → 20 ≤ post.length →
      toTextU w i.natAbs (pre ++ post) pre.length = some ((pre ++ Nat.toDigits 10 i.natAbs) ++
        (if i.natAbs < 10 then '\x00' :: post.drop ((Nat.toDigits 10 i.natAbs).length + 1) else post.drop (Nat.toDigits 10 i.natAbs).length),
        ((pre ++ Nat.toDigits 10 i.natAbs).length : ℤ)) := by
    intro pre post hpre hpost
    have hlen : (Nat.toDigits 10 i.natAbs).length ≤ 20 :=
      (Nat.length_toDigits_le_iff (by norm_num) (by norm_num)).mpr (by omega)
    by_cases h100 : 100 ≤ i.natAbs
    · rw [toTextU_large w i.natAbs h100 hlt pre post _ rfl (by omega), if_neg (by omega)]
    · unfold toTextU
      rw [if_pos (by omega)]
      obtain ⟨p, e1, e2, e3, e4, e5⟩ := lead_put pre post _ rfl i.natAbs (by omega) (by omega)
      simp only [Option.bind_eq_bind]
      rw [← Option.bind_assoc, e1]
      simp only [Option.bind_some, Option.pure_def, Option.some.injEq, Prod.mk.injEq]
      by_cases h10 : i.natAbs < 10
      · rw [if_pos h10, if_pos h10, e4 h10, len_lt _ h10]
        refine ⟨rfl, ?_⟩
        rw [List.length_append, len_lt _ h10]; push_cast; rfl
      · rw [if_neg h10, if_neg h10, e5 (by omega), len_two _ (by omega) (by omega)]
        refine ⟨rfl, ?_⟩
        rw [List.length_append, len_two _ (by omega) (by omega)]; push_cast; rfl
  have hdl : (decimal i).length ≤ 20 := by
    unfold decimal
    obtain ⟨hw, hr⟩ := h
    split_ifs with hc
    · have : (Nat.toDigits 10 i.natAbs).length ≤ 19 := (Nat.length_toDigits_le_iff (by norm_num) (by norm_num)).mpr (by
        rcases hw with rfl | rfl | rfl | rfl <;> cases signed <;> simp at hr <;> omega)
      simp; omega
    · exact (Nat.length_toDigits_le_iff (by norm_num) (by norm_num)).mpr (by omega)
  have main : toText w i buf 0 = some (decimal i ++ (if i.natAbs < 10 then '\x00' :: buf.drop ((decimal i).length + 1) else buf.drop (decimal i).length), ((decimal i).length : ℤ)) := by
    rw [(toText_reduce w signed i h buf 0).2]
    by_cases hc : i < 0
    · rw [if_pos hc]
      match buf, hb with
      | x :: post, hb =>
        have : put1 (x :: post) 0 '-' = some ('-' :: post) := by unfold put1; rw [if_pos (by simp)]; rfl
        rw [this]
        have := core ['-'] post (by simp [hc]) (by simp at hb; omega)
        simp only [List.singleton_append, List.length_singleton, Nat.cast_one] at this
        simp only [Option.bind_some, zero_add]
        rw [this]
        simp only [decimal, if_pos hc, List.length_cons, List.cons_append, List.drop_succ_cons, List.singleton_append]
    · rw [if_neg hc]
      have := core [] buf (by simp [hc]) (by omega)
      simp only [List.nil_append, List.length_nil, Nat.cast_zero] at this
      rw [this]
      simp only [decimal, if_neg hc]
  refine ⟨_, main, hdl, ?_, by simp, rfl⟩
  split_ifs <;> simp <;> omega

example : IntType 64 true (-2^63) ∧ IntType 8 true (-128) ∧ IntType 64 false 18446744073709551615 ∧ IntType 32 true (-2147483648) := by
  simp [IntType]
example : toText 64 (-9223372036854775808) (List.replicate 21 'x') 0 = some ("-9223372036854775808x".toList, 20) := by decide +kernel
example : toText 32 7 (List.replicate 4 'x') 0 = some (['7', '\x00', 'x', 'x'], 1) := by decide +kernel

end Verif.Itoa

namespace Verif.NumText

open Verif.Itoa

theorem decimal_no_nul (i : ℤ) : ∀ c ∈ decimal i, c ≠ '\x00' := by
  intro c hc
  have hd : ∀ c ∈ Nat.toDigits 10 i.natAbs, c ≠ '\x00' := by
    intro c hc h
    have := Nat.isDigit_of_mem_toDigits (by norm_num) (by norm_num) hc
    rw [h] at this; exact absurd this (by decide)
  unfold decimal at hc
  split_ifs at hc
  · rcases List.mem_cons.mp hc with rfl | hc
    · decide
    · exact hd c hc
  · exact hd c hc

theorem cstr_of (s r : Str) (h : ∀ c ∈ s, c ≠ '\x00') : strlen (s ++ '\x00' :: r) = some s.length ∧ cstr (s ++ '\x00' :: r) = some s := by
  have ht : (s ++ '\x00' :: r).takeWhile (· ≠ '\x00') = s := by
    rw [List.takeWhile_append_of_pos (by intro c hc; simpa using h c hc)]; simp
  have h1 : strlen (s ++ '\x00' :: r) = some s.length := by
    unfold strlen; rw [if_pos (by simp), ht]
  refine ⟨h1, ?_⟩
  unfold cstr; rw [h1]; simp

theorem toStr_buffer (w : ℕ) (signed : Bool) (i : ℤ) (h : IntType w signed i) :
    ∃ r e, toText w i (List.replicate 32 '\x00') 0 = some (decimal i ++ '\x00' :: r, e) := by
  obtain ⟨buf', h1, h2, h3, h4, h5⟩ := c26_toText w signed i h (List.replicate 32 '\x00') (by simp)
  rw [h1, h5]
  by_cases hc : i.natAbs < 10
  · rw [if_pos hc]; exact ⟨_, _, rfl⟩
  · rw [if_neg hc, List.drop_replicate]
    exact ⟨List.replicate (32 - (decimal i).length - 1) '\x00', (decimal i).length, by
      rw [show 32 - (decimal i).length = (32 - (decimal i).length - 1) + 1 by omega, List.replicate_succ]; simp⟩

/-- C30: `to_str(value, _, len, align)` is defined exactly when it needs at most 63 blanks; then the result is the
decimal text padded with blanks on the requested side to `max(len, natural length)`. -/
theorem c30_to_str_pad (w : ℕ) (signed : Bool) (i : ℤ) (h : IntType w signed i) (len : ℤ)
    (hlo : 0 ≤ len) (hhi : len ≤ 63 + (decimal i).length) (right : Bool) :
    ∃ k : ℕ, toStrInt w i len right = some (if right then List.replicate k ' ' ++ decimal i else decimal i ++ List.replicate k ' ') ∧
      ((k + (decimal i).length : ℕ) : ℤ) = max len (decimal i).length := by
  obtain ⟨r, e, hr⟩ := toStr_buffer w signed i h
  have hlen20 := (c26_toText w signed i h (List.replicate 32 '\x00') (by simp)).choose_spec.2.1
  obtain ⟨s1, s2⟩ := cstr_of (decimal i) r (decimal_no_nul i)
  unfold toStrInt padTo
  rw [hr]
  simp only [Option.bind_eq_bind, Option.bind_some, s1, s2, Option.pure_def]
  have hmod : (len % 2^64).toNat = len.toNat := by omega
  rw [hmod]
  by_cases hc : len.toNat > (decimal i).length
  · rw [if_pos hc, if_pos (by omega)]
    have hf : List.replicate (len.toNat - (decimal i).length) ' ' ++ List.replicate (64 - (len.toNat - (decimal i).length)) '\x00'
        = List.replicate (len.toNat - (decimal i).length) ' ' ++ '\x00' :: List.replicate (63 - (len.toNat - (decimal i).length)) '\x00' := by
      rw [show 64 - (len.toNat - (decimal i).length) = (63 - (len.toNat - (decimal i).length)) + 1 by omega, List.replicate_succ]
    rw [hf]
    obtain ⟨f1, f2⟩ := cstr_of (List.replicate (len.toNat - (decimal i).length) ' ') (List.replicate (63 - (len.toNat - (decimal i).length)) '\x00')
      (by intro c hc; rw [List.eq_of_mem_replicate hc]; decide)
    simp only [Option.bind_some, f2]
    exact ⟨_, rfl, by push_cast; omega⟩
  · rw [if_neg hc]
    refine ⟨0, ?_, by omega⟩
    have : cstr (List.replicate 64 '\x00') = some [] := by decide +kernel
    simp only [Option.bind_some, this]
    simp

/-- C30 (limit of the code): a negative `len`, or one needing more than 63 blanks, writes or reads outside `fill[64]`. -/
theorem c30_out_of_range_undefined (w : ℕ) (signed : Bool) (i : ℤ) (h : IntType w signed i) (len : ℤ) (right : Bool)
    (hl : -2147483648 ≤ len) (hh : len ≤ 2147483647) (hbad : len < 0 ∨ 63 + (decimal i).length < len) :
    toStrInt w i len right = none := by
  obtain ⟨r, e, hr⟩ := toStr_buffer w signed i h
  have hlen20 := (c26_toText w signed i h (List.replicate 32 '\x00') (by simp)).choose_spec.2.1
  obtain ⟨s1, s2⟩ := cstr_of (decimal i) r (decimal_no_nul i)
  unfold toStrInt padTo
  rw [hr]
  simp only [Option.bind_eq_bind, Option.bind_some, s1, s2, Option.pure_def]
  rw [if_pos (by omega)]
  by_cases h64 : (len % 2^64).toNat - (decimal i).length ≤ 64
  · have h64' : (len % 2^64).toNat - (decimal i).length = 64 := by omega
    rw [if_pos h64, h64']
    have : cstr (List.replicate 64 ' ' ++ List.replicate (64 - 64) '\x00') = none := by decide +kernel
    simp only [Option.bind_some, this, Option.bind_none]
  · rw [if_neg h64]; rfl

example : toStrInt 32 (-42) 6 true = some "   -42".toList ∧ toStrInt 32 1582 6 false = some "1582  ".toList ∧ toStrInt 32 5 0 false = some "5".toList := by
  decide +kernel

/-! ## my_stoi -/

theorem span_ws (ws rest : Str) (h : ∀ c ∈ ws, isSpace c = true) (hr : ∀ c t, rest = c :: t → isSpace c = false) :
    (ws ++ rest).takeWhile isSpace = ws ∧ (ws ++ rest).dropWhile isSpace = rest := by
  rw [List.takeWhile_append_of_pos h, List.dropWhile_append_of_pos h]
  cases rest with
  | nil => simp
  | cons c t => simp [hr c t rfl]

/-- the integer written as an optional sign and digits -/
def signedVal (sg ds : Str) : ℤ := if sg = ['-'] then -(Nat.ofDigitChars 10 ds 0 : ℤ) else (Nat.ofDigitChars 10 ds 0 : ℤ)

theorem strtol_eq (ws sg ds tail : Str) (hws : ∀ c ∈ ws, isSpace c = true) (hsg : sg = [] ∨ sg = ['-'] ∨ sg = ['+'])
    (hds : ∀ c ∈ ds, c.isDigit = true) (hne : ds ≠ []) (htail : ∀ c t, tail = c :: t → c.isDigit = false) :
    strtol (ws ++ sg ++ ds ++ tail) = if signedVal sg ds < -2^63 then ⟨-2^63, (ws ++ sg ++ ds).length, true⟩
      else if signedVal sg ds > 2^63 - 1 then ⟨2^63 - 1, (ws ++ sg ++ ds).length, true⟩
      else ⟨signedVal sg ds, (ws ++ sg ++ ds).length, false⟩ := by
  have hdig : (ds ++ tail).takeWhile Char.isDigit = ds := by
    rw [List.takeWhile_append_of_pos hds]
    cases tail with
    | nil => simp
    | cons c t => simp [htail c t rfl]
  obtain ⟨d, ds', rfl⟩ := List.exists_cons_of_ne_nil hne
  have hd : d.isDigit = true := hds d (by simp)
  have hd2 : isSpace d = false ∧ d ≠ '-' ∧ d ≠ '+' := by
    refine ⟨?_, ?_, ?_⟩
    · by_contra hcon
      simp only [Bool.not_eq_false, isSpace, decide_eq_true_eq] at hcon
      rcases hcon with rfl | rfl | rfl | rfl | rfl | rfl <;> exact absurd hd (by decide)
    · rintro rfl; exact absurd hd (by decide)
    · rintro rfl; exact absurd hd (by decide)
  obtain ⟨w1, w2⟩ := span_ws ws (sg ++ (d :: ds') ++ tail) hws (by
    intro c t hct
    rcases hsg with rfl | rfl | rfl
    · simp at hct; rw [← hct.1]; exact hd2.1
    · simp at hct; rw [← hct.1]; decide
    · simp at hct; rw [← hct.1]; decide)
  unfold strtol
  rw [show ws ++ sg ++ (d :: ds') ++ tail = ws ++ (sg ++ (d :: ds') ++ tail) by simp, w1, w2]
  have hne' : d :: ds' ≠ [] := by simp
  have hss : signSplit (sg ++ (d :: ds') ++ tail) = (decide (sg = ['-']), sg.length, (d :: ds') ++ tail) := by
    rcases hsg with rfl | rfl | rfl
    · simp only [List.nil_append, List.cons_append]
      unfold signSplit
      split
      · rename_i h; simp at h; exact absurd h.1 hd2.2.1
      · rename_i h; simp at h; exact absurd h.1 hd2.2.2
      · simp
    · rfl
    · rfl
  rw [hss]
  simp only [hdig, strtolDigits, if_neg hne', signedVal, decide_eq_true_eq, List.length_append]

/-- C28 (what the code does): a string starting with an integer numeral (blanks, optional sign, digits, then a
non-digit or the end).  If `errno` already is `ERANGE`, or the number does not fit in 64 bits, `my_stoi` throws `out_of_range`
and leaves `errno` set; otherwise it returns the number *reduced modulo 2^32* and leaves `errno` clear.
Missing for the full property: the verdict depends on `errno` left by earlier calls, and numbers outside `int` but inside
`long` are silently truncated. -/
theorem c28_stoi_partial (ws sg ds tail : Str) (hws : ∀ c ∈ ws, isSpace c = true) (hsg : sg = [] ∨ sg = ['-'] ∨ sg = ['+'])
    (hds : ∀ c ∈ ds, c.isDigit = true) (hne : ds ≠ []) (htail : ∀ c t, tail = c :: t → c.isDigit = false) (errno : Bool) :
    myStoi (ws ++ sg ++ ds ++ tail) errno =
      if errno = true ∨ signedVal sg ds < -2^63 ∨ 2^63 ≤ signedVal sg ds then (.outOfRange, true)
      else (.ok (Int.bmod (signedVal sg ds) (2^32)), false) := by
  unfold myStoi
  rw [strtol_eq ws sg ds tail hws hsg hds hne htail]
  have hpos : (ws ++ sg ++ ds).length ≠ 0 := by
    have : 0 < ds.length := List.length_pos_iff.mpr hne
    simp only [List.length_append]; omega
  by_cases h1 : signedVal sg ds < -2^63
  · simp only [if_pos h1, if_neg hpos, Bool.or_true, if_true]
    rw [if_pos (by tauto)]
  · by_cases h2 : signedVal sg ds > 2^63 - 1
    · simp only [if_neg h1, if_pos h2, if_neg hpos, Bool.or_true, if_true]
      rw [if_pos (Or.inr (Or.inr (by omega)))]
    · simp only [if_neg h1, if_neg h2, if_neg hpos, Bool.or_false, toI32]
      cases errno
      · rw [if_neg (by simp), if_neg (by simp; omega)]
      · simp

/-- C28: within `int` and with a clean `errno` the verdict is right. -/
theorem c28_in_int_partial (ws sg ds tail : Str) (hws : ∀ c ∈ ws, isSpace c = true) (hsg : sg = [] ∨ sg = ['-'] ∨ sg = ['+'])
    (hds : ∀ c ∈ ds, c.isDigit = true) (hne : ds ≠ []) (htail : ∀ c t, tail = c :: t → c.isDigit = false)
    (h1 : -2^31 ≤ signedVal sg ds) (h2 : signedVal sg ds < 2^31) :
    myStoi (ws ++ sg ++ ds ++ tail) false = (.ok (signedVal sg ds), false) := by
  rw [c28_stoi_partial ws sg ds tail hws hsg hds hne htail, if_neg (by simp; omega)]
  rw [Int.bmod_eq_of_le (by omega) (by omega)]

/-- C28 (finding): 4294967296 does not fit in an int but `my_stoi` returns 0 without throwing. -/
theorem c28_truncates : myStoi "4294967296".toList false = (.ok 0, false) := by decide +kernel

/-- C28 (finding): after one overflowing call every later valid parse throws. -/
theorem c28_stale_errno : ∀ ds : Str, (∀ c ∈ ds, c.isDigit = true) → ds ≠ [] →
    (myStoi ds (myStoi "99999999999999999999".toList false).2).1 = .outOfRange := by
  intro ds hds hne
  have : (myStoi "99999999999999999999".toList false).2 = true := by decide +kernel
  rw [this]
  have := c28_stoi_partial [] [] ds [] (by simp) (by simp) hds hne (by simp) true
  simp only [List.nil_append, List.append_nil, true_or, if_true] at this
  rw [this]

/-- run a history of `my_stoi` calls, keeping `errno` -/
def history : List Str → Bool → Bool
  | [], e => e
  | s :: r, e => history r (myStoi s e).2

/-- C27: after any history of conversions none of which reported out_of_range, `my_stoi(to_str(n)) = n` for every `int`
`n`.  Missing for the full property: after a call that overflowed `long` it throws (c28_stale_errno). -/
theorem c27_roundtrip_partial (n : ℤ) (h : IntType 32 true n) (calls : List Str)
    (hc : ∀ pre s post, calls = pre ++ s :: post → (myStoi s (history pre false)).1 ≠ .outOfRange) :
    ∃ t, toStrInt 32 n 0 false = some t ∧ (myStoi t (history calls false)).1 = .ok n := by
  have herr : ∀ s e, (myStoi s e).2 = true → e = true ∨ (myStoi s e).1 = .outOfRange := by
    intro s e
    unfold myStoi
    have hr : (strtol s).stop = 0 → (strtol s).erange = false := by
      unfold strtol strtolDigits
      simp only
      split_ifs with hd h1 h2 h3 h4
      all_goals first
        | (intro _; rfl)
        | (intro h; exfalso
           have := List.length_pos_iff.mpr hd
           simp only at h; omega)
    by_cases h0 : (strtol s).stop = 0
    · simp only [if_pos h0, hr h0, Bool.or_false]; intro h; exact Or.inl h
    · simp only [if_neg h0]
      cases he : (e || (strtol s).erange) <;> simp
  have hcl : history calls false = false := by
    have : ∀ l : List Str, (∀ pre s post, l = pre ++ s :: post → (myStoi s (history pre false)).1 ≠ .outOfRange) → history l false = false := by
      intro l
      induction l using List.reverseRecOn with
      | nil => intro; rfl
      | append_singleton l s ih =>
        intro hl
        have happ : ∀ (a : List Str) (b : List Str) (e : Bool), history (a ++ b) e = history b (history a e) := by
          intro a; induction a with
          | nil => intros; rfl
          | cons x a iha => intro b e; exact iha b _
        have h1 := ih (fun pre s' post hp => hl pre s' (post ++ [s]) (by rw [hp]; simp))
        rw [happ, h1]
        show (myStoi s false).2 = false
        have h2 := hl l s [] (by simp)
        rw [h1] at h2
        by_contra hcon
        rcases herr s false (by simpa using hcon) with h3 | h3
        · exact absurd h3 (by simp)
        · exact h2 h3
    exact this calls hc
  obtain ⟨k, hk, hk2⟩ := c30_to_str_pad 32 true n h 0 (by omega) (by omega) false
  have := decimal_ne n
  have hk0 : k = 0 := by omega
  subst hk0
  refine ⟨_, hk, ?_⟩
  rw [hcl]
  have hall : ∀ c ∈ Nat.toDigits 10 n.natAbs, c.isDigit = true := fun c hc => Nat.isDigit_of_mem_toDigits (by norm_num) (by norm_num) hc
  have hne : Nat.toDigits 10 n.natAbs ≠ [] := Nat.toDigits_ne_nil
  obtain ⟨-, hr⟩ := h
  simp at hr
  have e : decimal n = [] ++ (if n < 0 then ['-'] else []) ++ Nat.toDigits 10 n.natAbs ++ [] := by
    unfold decimal; split_ifs <;> simp
  have hv : signedVal (if n < 0 then ['-'] else []) (Nat.toDigits 10 n.natAbs) = n := by
    unfold signedVal
    rw [Nat.ofDigitChars_ten_toDigits]
    by_cases h1 : n < 0
    · rw [if_pos h1, if_pos rfl]; omega
    · rw [if_neg h1, if_neg (by simp)]; omega
  simp only [List.replicate_zero, List.append_nil, Bool.false_eq_true, if_false]
  rw [e, c28_in_int_partial [] _ _ [] (by simp) (by split_ifs <;> simp) hall hne (by simp) (by rw [hv]; omega) (by rw [hv]; omega), hv]

example : (myStoi "  -12x".toList false) = (.ok (-12), false) ∧ (myStoi "x".toList false).1 = .invalidArgument := by decide +kernel
example : IntType 32 true (-2147483648) ∧ history ["12".toList, "x".toList] false = false := by
  refine ⟨by simp [IntType], by decide +kernel⟩

end Verif.NumText
