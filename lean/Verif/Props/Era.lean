import Verif.Era
import Verif.EraSpec
import Verif.Props.NumText
import Verif.Props.Strings

namespace Verif.Era

open Verif.NumText Verif.Itoa

/-- the table as records: numeric fields read as numbers -/
def toEras : List String → List (ℤ × ℤ × ℤ) → Option (List Era)
  | [], [] => some []
  | _ :: _ :: _ :: f3 :: f4 :: f5 :: f6 :: rest, (a, b, c) :: ns =>
    (toEras rest ns).map (fun t => ⟨a, b, c, f3, f4, f5, f6⟩ :: t)
  | _, _ => none

/-- the numbers are what `my_stoi` reads, small enough for `int` arithmetic -/
def readsOk : List String → List (ℤ × ℤ × ℤ) → Bool
  | [], [] => true
  | f0 :: f1 :: f2 :: _ :: _ :: _ :: _ :: rest, (a, b, c) :: ns =>
    decide (stoi f0 false = some (a, false) ∧ stoi f1 false = some (b, false) ∧ stoi f2 false = some (c, false) ∧
      -100000 ≤ a ∧ a ≤ 100000 ∧ 0 ≤ b ∧ b ≤ 100000 ∧ 0 ≤ c ∧ c ≤ 100000) && readsOk rest ns
  | _, _ => false

/-- the era table of the program -/
def eras : List Era := (toEras fields nums).getD []

theorem semis_cons_ne (a : String) (l : List String) : semis (a :: l) = a ++ (if l = [] then "" else ";" ++ semis l) := by
  cases l with
  | nil => simp [semis]
  | cons b r => simp [semis, String.append_assoc]

theorem semis_snoc (l : List String) (a : String) (h : l ≠ []) : semis (l ++ [a]) = semis l ++ ";" ++ a := by
  induction l with
  | nil => exact absurd rfl h
  | cons b r ih =>
    cases r with
    | nil => simp [semis]
    | cons c r =>
      have := ih (by simp)
      simp only [List.cons_append] at this ⊢
      rw [semis, this, semis]
      simp [String.append_assoc]

theorem entry_ne (r : Era) (y : ℤ) : r.entry y ≠ "" := by
  intro h
  have := congrArg (fun s : String => s.toList.length) h
  simp [Era.entry] at this

theorem semis_empty (l : List String) (h : ∀ a ∈ l, a ≠ "") : semis l = "" ↔ l = [] := by
  constructor
  · intro hs
    cases l with
    | nil => rfl
    | cons a r =>
      rw [semis_cons_ne] at hs
      have := congrArg (fun s : String => s.toList) hs
      simp only [String.toList_append] at this
      have h2 : a.toList = [] := by
        exact (List.append_eq_nil_iff.mp this).1
      exact absurd (by simpa using h2) (h a (by simp))
  · rintro rfl; rfl

theorem toStr_eq (n : ℤ) (h1 : -2147483648 ≤ n) (h2 : n < 2147483648) : toStr n = some (String.ofList (decimal n)) := by
  obtain ⟨k, hk, hk2⟩ := c30_to_str_pad 32 true n ⟨by simp, by simp; omega⟩ 0 (by omega) (by omega) false
  have := decimal_ne n
  have hk0 : k = 0 := by omega
  subst hk0
  unfold toStr; rw [hk]; simp

theorem loop_eq (y : ℤ) (fs : List String) (ns : List (ℤ × ℤ × ℤ)) (es : List Era) :
    ∀ done : List String, toEras fs ns = some es → readsOk fs ns = true → (∀ a ∈ done, a ≠ "") →
      getNHLoop y fs (semis done) false = some (semis (done ++ (es.filter (fun r => decide (r.InForce y))).map (fun r => r.entry y))) := by
  induction ns generalizing fs es with
  | nil =>
    intro done he hr hd
    match fs with
    | [] => simp [toEras] at he; subst he; simp [getNHLoop]
    | [_] | [_, _] | [_, _, _] | [_, _, _, _] | [_, _, _, _, _] | [_, _, _, _, _, _] => simp [toEras] at he
    | _ :: _ :: _ :: _ :: _ :: _ :: _ :: _ => simp [toEras] at he
  | cons n ns ih =>
    intro done he hr hd
    obtain ⟨a, b, c⟩ := n
    match fs with
    | [] => simp [toEras] at he
    | [_] | [_, _] | [_, _, _] | [_, _, _, _] | [_, _, _, _, _] | [_, _, _, _, _, _] => simp [toEras] at he
    | f0 :: f1 :: f2 :: f3 :: f4 :: f5 :: f6 :: rest =>
      simp only [toEras, Option.map_eq_some_iff] at he
      obtain ⟨es', he', rfl⟩ := he
      simp only [readsOk, Bool.and_eq_true, decide_eq_true_eq] at hr
      obtain ⟨⟨s0, s1, s2, r1, r2, r3, r4, r5, r6⟩, hr'⟩ := hr
      unfold getNHLoop
      rw [s0]
      simp only [Option.bind_eq_bind, Option.bind_some]
      by_cases hy : y < a
      · rw [if_pos hy, ih rest es' done he' hr' hd, List.filter_cons_of_neg (by rw [decide_eq_true_eq]; simp only [Era.InForce]; omega)]
      · rw [if_neg hy, s1]
        simp only [Option.bind_some]
        rw [i32_some (by omega) (by omega)]
        simp only [Option.bind_some]
        by_cases hy2 : y ≥ a + b
        · rw [if_pos hy2, ih rest es' done he' hr' hd, List.filter_cons_of_neg (by rw [decide_eq_true_eq]; simp only [Era.InForce]; omega)]
        · rw [if_neg hy2, s2]
          simp only [Option.bind_some]
          rw [i32_some (by omega) (by omega)]; simp only [Option.bind_some]
          rw [i32_some (by omega) (by omega)]; simp only [Option.bind_some]
          rw [i32_some (by omega) (by omega)]; simp only [Option.bind_some]
          rw [toStr_eq _ (by omega) (by omega)]
          simp only [Option.bind_some]
          rw [List.filter_cons_of_pos (by rw [decide_eq_true_eq]; simp only [Era.InForce]; omega)]
          have hs : semis done ++ (if (semis done).isEmpty then "" else ";") ++ "[" ++ f3 ++ "]" ++ f4 ++ " " ++ f5 ++ " " ++
              (f6 ++ String.ofList (decimal (y - a + 1 + c)) ++ "年") = semis (done ++ [Era.entry ⟨a, b, c, f3, f4, f5, f6⟩ y]) := by
            by_cases hdn : done = []
            · subst hdn; simp [semis, Era.entry, String.append_assoc]
            · rw [semis_snoc _ _ hdn, if_neg (by simpa using (semis_empty done hd).not.mpr hdn)]
              simp only [Era.entry, String.append_assoc]
          rw [hs, ih rest es' _ he' hr' (by
            intro x hx
            rcases List.mem_append.mp hx with hx | hx
            · exact hd x hx
            · simp at hx; rw [hx]; exact entry_ne _ _)]
          simp

theorem eras_ok : toEras fields nums = some eras ∧ readsOk fields nums = true := by
  have : (toEras fields nums).isSome = true ∧ readsOk fields nums = true := by decide +kernel
  refine ⟨?_, this.2⟩
  obtain ⟨x, hx⟩ := Option.isSome_iff_exists.mp this.1
  rw [eras, hx]; rfl

/-- C13: for every `int` year, `getNH` returns the entries of exactly the eras in force, in table order, separated by
semicolons; every number in the table is parsed without exception. -/
theorem c13_getNH (y : ℤ) :
    getNH y false = some (semis ((eras.filter (fun r => decide (r.InForce y))).map (fun r => r.entry y))) := by
  have := loop_eq y fields nums eras [] eras_ok.1 eras_ok.2 (by simp)
  simpa [getNH, semis] using this

/-- the fields are what `split` makes of the source literal (the fields joined by commas) -/
theorem c13_table_split : StrOps.split ((StrOps.join [','] (fields.map String.toList)).length + 1) (StrOps.join [','] (fields.map String.toList)) [','] =
    some (fields.map String.toList) := by
  apply StrOps.c32_join_split _ _ (by decide +kernel) _ _ (by omega)
  have : (fields.map String.toList).all (fun f => decide (',' ∉ f)) = true := by decide +kernel
  intro f hf
  simpa using List.all_eq_true.mp this f hf

/-- greedy cover: the intervals of `l`, taken in order, cover `[lo, hi)` without gap -/
def covers : ℤ → ℤ → List (ℤ × ℤ × ℤ) → Bool
  | lo, hi, [] => decide (hi ≤ lo)
  | lo, hi, (a, b, _) :: r => if a ≤ lo then covers (max lo (a + b)) hi r else covers lo hi r

theorem covers_spec (lo hi : ℤ) (l : List (ℤ × ℤ × ℤ)) (h : covers lo hi l = true) (y : ℤ) (h1 : lo ≤ y) (h2 : y < hi) :
    ∃ n ∈ l, n.1 ≤ y ∧ y < n.1 + n.2.1 := by
  induction l generalizing lo with
  | nil => simp [covers] at h; omega
  | cons n r ih =>
    obtain ⟨a, b, c⟩ := n
    unfold covers at h
    split_ifs at h with hc
    · by_cases hy : y < a + b
      · exact ⟨(a, b, c), by simp, by simp; omega⟩
      · obtain ⟨n, hn, hn2⟩ := ih (max lo (a + b)) h (by omega)
        exact ⟨n, by simp [hn], hn2⟩
    · obtain ⟨n, hn, hn2⟩ := ih lo h h1
      exact ⟨n, by simp [hn], hn2⟩

theorem eras_nums (fs : List String) (ns : List (ℤ × ℤ × ℤ)) (es : List Era) (h : toEras fs ns = some es) :
    es.map (fun r => (r.start, r.len, r.used)) = ns := by
  induction ns generalizing fs es with
  | nil =>
    match fs with
    | [] => simp [toEras] at h; subst h; rfl
    | [_] | [_, _] | [_, _, _] | [_, _, _, _] | [_, _, _, _, _] | [_, _, _, _, _, _] => simp [toEras] at h
    | _ :: _ :: _ :: _ :: _ :: _ :: _ :: _ => simp [toEras] at h
  | cons n ns ih =>
    match fs with
    | [] => simp [toEras] at h
    | [_] | [_, _] | [_, _, _] | [_, _, _, _] | [_, _, _, _, _] | [_, _, _, _, _, _] => simp [toEras] at h
    | f0 :: f1 :: f2 :: f3 :: f4 :: f5 :: f6 :: rest =>
      simp only [toEras, Option.map_eq_some_iff] at h
      obtain ⟨es', he', rfl⟩ := h
      simp [ih rest es' he']

/-- C13: the years without any era: before -2069, the holes -1989..-1987 and 177 of the table, and after 11947. -/
theorem c13_empty_iff (y : ℤ) :
    getNH y false = some "" ↔ y < -2069 ∨ (-1989 ≤ y ∧ y ≤ -1987) ∨ y = 177 ∨ 11947 < y := by
  rw [c13_getNH, Option.some.injEq, semis_empty _ (by
    intro a ha; obtain ⟨r, -, rfl⟩ := List.mem_map.mp ha; exact entry_ne _ _)]
  rw [List.map_eq_nil_iff, List.filter_eq_nil_iff]
  have hm := eras_nums fields nums eras eras_ok.1
  have conv : (∀ a ∈ eras, ¬ decide (a.InForce y) = true) ↔ ∀ n ∈ nums, ¬ (n.1 ≤ y ∧ y < n.1 + n.2.1) := by
    rw [← hm, List.forall_mem_map]; simp only [decide_eq_true_eq]; exact Iff.rfl
  rw [conv]
  have g1 : covers (-2069) (-1989) nums = true := by decide +kernel
  have g2 : covers (-1986) 177 nums = true := by decide +kernel
  have g3 : covers 178 11948 nums = true := by decide +kernel
  have hn : nums.all (fun n => decide ((-2069 ≤ n.1 ∧ n.1 + n.2.1 ≤ -1989) ∨ (-1986 ≤ n.1 ∧ n.1 + n.2.1 ≤ 177) ∨ (178 ≤ n.1 ∧ n.1 + n.2.1 ≤ 11948))) = true := by
    decide +kernel
  constructor
  · intro h
    by_contra hc
    have : ∃ n ∈ nums, n.1 ≤ y ∧ y < n.1 + n.2.1 := by
      by_cases c1 : y < -1989
      · exact covers_spec _ _ _ g1 y (by omega) c1
      · by_cases c2 : y < 177
        · exact covers_spec _ _ _ g2 y (by omega) c2
        · exact covers_spec _ _ _ g3 y (by omega) (by omega)
    obtain ⟨n, hn1, hn2⟩ := this
    exact h n hn1 hn2
  · intro h n hnm hcon
    have := of_decide_eq_true (List.all_eq_true.mp hn n hnm)
    omega

example : getNH 2024 false = some "[当代]中国  公历纪元2024年" ∧ getNH 1644 false = some "[明]毅宗 朱由检 崇祯17年;[清]世祖 爱新觉罗福临 顺治1年" := by
  decide +kernel
example : getNH 177 false = some "" := by decide +kernel

end Verif.Era
