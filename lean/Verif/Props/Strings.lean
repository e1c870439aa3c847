import Verif.StrOps
import Verif.StrSpec
import Mathlib.Tactic.Ring

namespace Verif.StrOps

variable {α : Type} [DecidableEq α]

theorem findAt_none {pat s : List α} (h : findAt pat s = none) : ¬ pat <:+: s := by
  induction s with
  | nil =>
    unfold findAt at h
    split_ifs at h with hp
    intro hc; exact hp (List.eq_nil_of_infix_nil hc)
  | cons x t ih =>
    unfold findAt at h
    split_ifs at h with hp
    simp only [Option.map_eq_none_iff] at h
    intro hc
    rcases List.infix_cons_iff.mp hc with h1 | h1
    · exact hp (List.isPrefixOf_iff_prefix.mpr h1)
    · exact ih h h1

theorem findAt_some {pat s : List α} {p : ℕ} (h : findAt pat s = some p) :
    p + pat.length ≤ s.length ∧ s = s.take p ++ pat ++ s.drop (p + pat.length) ∧
    ∀ a b, s = a ++ pat ++ b → p ≤ a.length := by
  induction s generalizing p with
  | nil =>
    unfold findAt at h
    split_ifs at h with hp
    simp at h; subst h; subst hp; simp
  | cons x t ih =>
    unfold findAt at h
    split_ifs at h with hp
    · simp at h; subst h
      obtain ⟨r, hr⟩ := List.isPrefixOf_iff_prefix.mp hp
      rw [← hr]; simp
    · obtain ⟨q, hq, rfl⟩ := Option.map_eq_some_iff.mp h
      obtain ⟨h1, h2, h3⟩ := ih hq
      refine ⟨by simp; omega, ?_, ?_⟩
      · have : q + 1 + pat.length = (q + pat.length) + 1 := by ring
        simp only [List.take_succ_cons, this, List.drop_succ_cons, List.cons_append]
        rw [← h2]
      · intro a b hab
        cases a with
        | nil => exfalso; apply hp; rw [hab]; simp [List.isPrefixOf_iff_prefix]
        | cons y a =>
          simp only [List.cons_append, List.cons.injEq] at hab
          have := h3 a b hab.2
          simp; omega

/-- loop invariant: the part before `pos` is final -/
theorem replaceLoop_spec (src dst : List α) (hs : src ≠ []) (fuel : ℕ) :
    ∀ done rest : List α, rest.length < fuel →
      ∃ rest', replaceLoop src dst fuel (done ++ rest) done.length = some (done ++ rest') ∧ Replaced src dst rest rest' := by
  induction fuel with
  | zero => intro d r h; omega
  | succ f ih =>
    intro d r h
    unfold replaceLoop
    have hf : find (d ++ r) src d.length = (findAt src r).map (· + d.length) := by
      unfold find; rw [if_pos (by simp)]; simp
    rw [hf]
    cases hfa : findAt src r with
    | none => exact ⟨r, by simp, .done (findAt_none hfa)⟩
    | some p =>
      obtain ⟨h1, h2, h3⟩ := findAt_some hfa
      have hpos : 0 < src.length := List.length_pos_iff.mpr hs
      simp only [Option.map_some]
      obtain ⟨r', hr', hR⟩ := ih (d ++ r.take p ++ dst) (r.drop (p + src.length)) (by simp; omega)
      have e1 : (d ++ r).take (p + d.length) ++ dst ++ (d ++ r).drop (p + d.length + src.length)
          = (d ++ r.take p ++ dst) ++ r.drop (p + src.length) := by
        rw [show p + d.length = d.length + p by omega, List.take_length_add_append,
          show d.length + p + src.length = d.length + (p + src.length) by omega, List.drop_length_add_append]
      have e2 : p + d.length + dst.length = (d ++ r.take p ++ dst).length := by
        simp; omega
      rw [e1, e2, hr']
      refine ⟨r.take p ++ dst ++ r', by simp, ?_⟩
      conv => arg 3; rw [h2]
      refine .step (fun a b hab => ?_) hR
      rw [← h2] at hab
      have := h3 a b hab
      simp; omega

/-- C31: for a non-empty pattern `string_replace` terminates and yields the string with the left-to-right
non-overlapping occurrences replaced. -/
theorem c31_string_replace (s a b : List α) (ha : a ≠ []) :
    ∃ t, Replaced a b s t ∧ ∀ fuel, s.length < fuel → stringReplace fuel s a b = some t := by
  obtain ⟨t, h1, h2⟩ := replaceLoop_spec a b ha (s.length + 1) [] s (by omega)
  refine ⟨t, h2, fun fuel hf => ?_⟩
  obtain ⟨t', h1', h2'⟩ := replaceLoop_spec a b ha fuel [] s hf
  have mono : ∀ (n m : ℕ) (big : List α) (pos : ℕ) (r : List α), n ≤ m → replaceLoop a b n big pos = some r → replaceLoop a b m big pos = some r := by
    intro n
    induction n with
    | zero => intro m big pos r _ h; simp [replaceLoop] at h
    | succ n ih =>
      intro m big pos r hm h
      obtain ⟨m, rfl⟩ : ∃ k, m = k + 1 := ⟨m - 1, by omega⟩
      unfold replaceLoop at h ⊢
      cases hfd : find big a pos with
      | none => rw [hfd] at h; exact h
      | some p => rw [hfd] at h; exact ih m _ _ _ (by omega) h
  exact mono (s.length + 1) _ _ _ _ (by omega) (by simpa using h1)

/-- the replacement is determined: `Replaced` is a function of its input -/
theorem c31_replaced_unique (s a b t t' : List α) (ha : a ≠ []) (h : Replaced a b s t) (h' : Replaced a b s t') : t = t' := by
  induction h generalizing t' with
  | @done s hn =>
    generalize hs : s = s' at h'
    cases h' with
    | done => rfl
    | @step pre post post' hm hr => exfalso; apply hn; rw [hs]; exact ⟨pre, post, rfl⟩
  | @step pre post post' hm hr ih =>
    generalize hs : pre ++ a ++ post = s' at h'
    cases h' with
    | done hn => exfalso; apply hn; rw [← hs]; exact ⟨pre, post, rfl⟩
    | @step pre2 post2 post2' hm2 hr2 =>
      have l1 := hm _ _ hs
      have l2 := hm2 _ _ hs.symm
      have hl : pre.length = pre2.length := by omega
      rw [List.append_assoc, List.append_assoc] at hs
      obtain ⟨e1, e2⟩ := List.append_inj hs hl
      have e3 := List.append_cancel_left e2
      subst e1; subst e3
      rw [ih _ hr2]

/-- C31 (finding): with an empty pattern the loop never ends, whatever the string. -/
theorem c31_empty_pattern_diverges (s b : List α) (fuel : ℕ) : stringReplace fuel s [] b = none := by
  unfold stringReplace
  have : ∀ fuel (s : List α) pos, pos ≤ s.length → replaceLoop [] b fuel s pos = none := by
    intro fuel
    induction fuel with
    | zero => intros; rfl
    | succ f ih =>
      intro s pos hp
      unfold replaceLoop find
      have : findAt ([] : List α) (s.drop pos) = some 0 := by
        cases s.drop pos <;> simp [findAt]
      rw [if_pos hp, this]
      simp only [Option.map_some]
      apply ih
      simp; omega
  exact this fuel s 0 (by simp)

/-- a one-character pattern: every such character becomes `b` -/
theorem c31_char (s b : List α) (x : α) (fuel : ℕ) (hf : s.length < fuel) :
    stringReplace fuel s [x] b = some (s.flatMap (fun c => if c = x then b else [c])) := by
  obtain ⟨t, h1, h2⟩ := c31_string_replace s [x] b (by simp)
  rw [h2 fuel hf]
  congr 1
  have free : ∀ l : List α, x ∉ l → l.flatMap (fun c => if c = x then b else [c]) = l := by
    intro l; induction l with
    | nil => simp
    | cons y l ih =>
      intro h
      simp only [List.mem_cons, not_or] at h
      rw [List.flatMap_cons, ih h.2, if_neg (Ne.symm h.1)]; rfl
  clear h2 hf
  induction h1 with
  | @done s hn =>
    rw [free]
    intro hx; apply hn
    obtain ⟨p, q, rfl⟩ := List.append_of_mem hx
    exact ⟨p, q, by simp⟩
  | @step pre post post' hm hr ih =>
    have hx : x ∉ pre := by
      intro hx
      obtain ⟨p, q, rfl⟩ := List.append_of_mem hx
      have := hm p (q ++ [x] ++ post) (by simp)
      simp at this
    rw [List.flatMap_append, List.flatMap_append, free pre hx, ← ih]
    simp

example : stringReplace 9 "aXbXX".toList "X".toList "--".toList = some "a--b----".toList := by decide
example : Replaced "aa".toList "b".toList "aaa".toList "ba".toList ∧ stringReplace 9 "aaa".toList "aa".toList "b".toList = some "ba".toList := by
  refine ⟨?_, by decide⟩
  obtain ⟨t, h1, h2⟩ := c31_string_replace "aaa".toList "aa".toList "b".toList (by decide)
  have : some t = some "ba".toList := by rw [← h2 9 (by decide)]; decide
  rw [Option.some.injEq] at this; rwa [this] at h1

/-! ## C32 split -/

theorem splitLoop_spec (c : α) (fuel : ℕ) :
    ∀ (pre rest : List α) (dest : List (List α)), rest.length < fuel →
      ∃ fs, splitLoop [c] (pre ++ rest) fuel pre.length dest = some (dest ++ fs) ∧ fs ≠ [] ∧
        join [c] fs = rest ∧ ∀ f ∈ fs, c ∉ f := by
  induction fuel with
  | zero => intro p r d h; omega
  | succ n ih =>
    intro pre rest dest h
    unfold splitLoop
    by_cases hc : c ∈ rest
    · obtain ⟨a, b, rfl, hca⟩ := List.eq_append_cons_of_mem hc
      have hff : findFirstOf (pre ++ (a ++ c :: b)) [c] pre.length = some (pre.length + a.length) := by
        unfold findFirstOf
        rw [if_pos (by simp), List.drop_left]
        have : (a ++ c :: b).findIdx? (fun x => decide (x ∈ [c])) = some a.length := by
          rw [List.findIdx?_append, List.findIdx?_eq_none_iff.mpr (by intro x hx; simp; rintro rfl; exact hca hx)]
          simp [List.findIdx?_cons]
        rw [this]; simp; omega
      rw [hff]
      simp only [List.length_singleton]
      obtain ⟨fs, h1, h2, h3, h4⟩ := ih (pre ++ a ++ [c]) b (dest ++ [a]) (by simp at h; omega)
      have e1 : pre ++ (a ++ c :: b) = (pre ++ a ++ [c]) ++ b := by simp
      have e2 : pre.length + a.length + 1 = (pre ++ a ++ [c]).length := by simp; omega
      have e3 : ((pre ++ (a ++ c :: b)).drop pre.length).take (pre.length + a.length - pre.length) = a := by
        rw [List.drop_left, show pre.length + a.length - pre.length = a.length by omega, List.take_left]
      rw [e3, e2, e1, h1]
      refine ⟨a :: fs, by simp, by simp, ?_, ?_⟩
      · cases fs with
        | nil => exact absurd rfl h2
        | cons f fs => simp [join, h3]
      · intro f hf
        rcases List.mem_cons.mp hf with rfl | hf
        · exact hca
        · exact h4 f hf
    · have hff : findFirstOf (pre ++ rest) [c] pre.length = none := by
        unfold findFirstOf
        split_ifs
        · rw [List.drop_left, List.findIdx?_eq_none_iff.mpr (by intro x hx; simp; rintro rfl; exact hc hx)]; rfl
        · rfl
      rw [hff]
      refine ⟨[rest], ?_, by simp, rfl, by simpa using hc⟩
      simp [substr]

/-- C32: `split(s, c)` terminates without exception; its fields joined with `c` give `s` back and no field contains
`c`. -/
theorem c32_split_join (s : List α) (c : α) (fuel : ℕ) (hf : s.length < fuel) :
    ∃ fs, split fuel s [c] = some fs ∧ fs ≠ [] ∧ join [c] fs = s ∧ ∀ f ∈ fs, c ∉ f := by
  simpa [split] using splitLoop_spec c fuel [] s [] hf

/-- C32: splitting a joined list of separator-free fields gives the fields back. -/
theorem c32_join_split (fs : List (List α)) (c : α) (hne : fs ≠ []) (hfree : ∀ f ∈ fs, c ∉ f) (fuel : ℕ)
    (hf : (join [c] fs).length < fuel) : split fuel (join [c] fs) [c] = some fs := by
  obtain ⟨gs, h1, h2, h3, h4⟩ := c32_split_join (join [c] fs) c fuel hf
  rw [h1]; congr 1
  clear h1 hf
  have key : ∀ a b x y : List α, c ∉ a → c ∉ b → a ++ [c] ++ x = b ++ [c] ++ y → a = b ∧ x = y := by
    intro a
    induction a with
    | nil =>
      intro b x y _ hb h
      cases b with
      | nil => simpa using h
      | cons z b => simp at h; simp [h.1] at hb
    | cons w a ih =>
      intro b x y ha hb h
      cases b with
      | nil => simp at h; simp [h.1] at ha
      | cons z b =>
        simp only [List.cons_append, List.cons.injEq] at h
        simp only [List.mem_cons, not_or] at ha hb
        obtain ⟨e1, e2⟩ := ih b x y ha.2 hb.2 h.2
        exact ⟨by rw [h.1, e1], e2⟩
  induction fs generalizing gs with
  | nil => exact absurd rfl hne
  | cons f fs ih =>
    cases gs with
    | nil => exact absurd rfl h2
    | cons g gs =>
      cases fs with
      | nil =>
        cases gs with
        | nil => simpa [join] using h3
        | cons g' gs =>
          exfalso
          simp only [join] at h3
          apply hfree f (by simp); rw [← h3]; simp
      | cons f' fs =>
        cases gs with
        | nil =>
          exfalso
          simp only [join] at h3
          apply h4 g (by simp); rw [h3]; simp
        | cons g' gs =>
          simp only [join] at h3
          obtain ⟨e1, e2⟩ := key _ _ _ _ (h4 g (by simp)) (hfree f (by simp)) h3
          rw [e1, ih (by simp) (fun x hx => hfree x (by simp at hx ⊢; tauto)) (g' :: gs) (by simp) (by rw [e2])
            (fun x hx => h4 x (by simp at hx ⊢; tauto))]

/-- C32 (limit): with a two-character separator `split` may throw: the separator set `{',', ' '}` found at the end. -/
theorem c32_two_char_throws : ∀ fuel, split fuel "a,".toList ", ".toList = none := by
  intro fuel
  match fuel with
  | 0 => rfl
  | 1 => decide
  | n + 2 => rfl

example : split 20 "1949,9999,,x".toList ",".toList = some ["1949".toList, "9999".toList, [], "x".toList] := by decide

/-! ## C33 fill_str -/

omit [DecidableEq α] in
/-- C33: `fill_str` with a one-character filler. -/
theorem c33_fill_str (s : List α) (n : ℤ) (c : α) :
    ∃ k : ℕ, fillStr s n [c] = List.replicate k c ++ s ∧ ((fillStr s n [c]).length : ℤ) = max n s.length := by
  have h : ∀ k (s : List α), fillLoop [c] k s = List.replicate k c ++ s := by
    intro k
    induction k with
    | zero => intro s; rfl
    | succ k ih => intro s; rw [fillLoop, ih, List.replicate_succ']; simp
  refine ⟨(n - s.length).toNat, h _ _, ?_⟩
  unfold fillStr
  rw [h]; simp; omega

example : fillStr "T".toList 2 " ".toList = " T".toList := by decide

end Verif.StrOps
