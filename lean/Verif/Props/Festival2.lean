import Verif.FestivalSpec2
import Verif.Props.GanZhi
import Verif.Props.Festival

/-!
# Properties C16 and C17: lunar festivals, dog days, nines (`getDayName2`)
-/

namespace Verif.Fest

open Verif.NumText

theorem utf8_len (c : Char) : 0 < (utf8 c).length := by
  unfold utf8; simp only; split_ifs <;> simp

theorem b_append (s t : String) : b (s ++ t) = b s ++ b t := by
  simp [b, String.toList_append]

/-- adding a mark -/
def addM (r : Marks) (c : Cls) (t : Str) (off : Bool) : Marks :=
  match c with
  | .A => { r with A := r.A ++ t, Fjia := r.Fjia || off }
  | .B => { r with B := r.B ++ t, Fjia := r.Fjia || off }
  | .C => { r with C := r.C ++ t, Fjia := r.Fjia || off }

/-- adding a list of marks -/
def addMs (r : Marks) (l : List (Mark)) : Marks := l.foldl (fun r m => addM r m.1 m.2.1 m.2.2) r

theorem addMs_append (r : Marks) (l k : List (Mark)) : addMs r (l ++ k) = addMs (addMs r l) k := by
  simp [addMs]

theorem addMs_text (c : Cls) : ∀ (l : List (Mark)) (r : Marks),
    (addMs r l).text c = r.text c ++ ofCls c l ∧ (addMs r l).Fjia = (r.Fjia || anyOff l) := by
  intro l
  induction l with
  | nil => intro r; simp [addMs, ofCls, anyOff]
  | cons m l ih =>
    intro r
    have e := ih (addM r m.1 m.2.1 m.2.2)
    simp only [addMs, List.foldl_cons] at e ⊢
    rw [e.1, e.2]
    obtain ⟨k, t, o⟩ := m
    constructor
    · simp only [ofCls, List.filter_cons]
      cases k <;> cases c <;> simp [addM, Marks.text]
    · cases k <;> simp [addM, anyOff, Bool.or_assoc]

theorem onA_eq (d : Str) (k t : String) (o : Bool) (r : Marks) : onA d k t o r = addMs r (if d = b k then [(Cls.A, b t, o)] else []) := by
  unfold onA; split_ifs <;> rfl
theorem onB_eq (d : Str) (k t : String) (o : Bool) (r : Marks) : onB d k t o r = addMs r (if d = b k then [(Cls.B, b t, o)] else []) := by
  unfold onB; split_ifs <;> rfl
theorem onC_eq (d : Str) (k t : String) (r : Marks) : onC d k t r = addMs r (if d = b k then [(Cls.C, b t, false)] else []) := by
  unfold onC; split_ifs <;> simp [addMs, addM]

theorem rmc_len : ∀ k : Fin 30, (b ((strRmc[k.val]?).getD "")).length = 6 := by decide +kernel

theorem rmc_inj : ∀ k l : Fin 30, b ((strRmc[k.val]?).getD "") = b ((strRmc[l.val]?).getD "") → k = l := by decide +kernel

/-- name of day `k` (1..30) of a lunar month -/
def rmc (k : ℕ) : String := (strRmc[k - 1]?).getD ""

theorem key_eq (mo : Str) (day : ℕ) (h1 : 1 ≤ day) (h2 : day ≤ 30) (m : String) (k : ℕ) (hk1 : 1 ≤ k) (hk2 : k ≤ 30) :
    mo ++ b "月" ++ b (rmc day) = b (m ++ "月" ++ rmc k) ↔ (mo = b m ∧ day = k) := by
  rw [b_append, b_append]
  have l1 := rmc_len ⟨day - 1, by omega⟩
  have l2 := rmc_len ⟨k - 1, by omega⟩
  constructor
  · intro h
    obtain ⟨e1, e2⟩ := List.append_inj' h (by unfold rmc; rw [l1, l2])
    have := rmc_inj ⟨day - 1, by omega⟩ ⟨k - 1, by omega⟩ e2
    simp only [Fin.mk.injEq] at this
    exact ⟨List.append_cancel_right e1, by omega⟩
  · rintro ⟨rfl, rfl⟩; rfl

theorem lunarDates_eq (d : Str) (r : Marks) (hne : d ≠ b "冬月初八") :
    lunarDates d r = addMs r ((lunarFestivals.map (fun f => if d = b (f.month ++ "月" ++ rmc f.day) then [(f.cls, b f.text, f.off)] else [])).flatten) := by
  unfold lunarDates
  simp only [onA_eq, onB_eq, onC_eq, ← addMs_append, lunarFestivals, List.map_cons, List.map_nil, List.flatten_cons, List.flatten_nil,
    if_neg hne, List.append_nil, List.append_assoc]
  rfl


theorem flatten_filter {α β : Type} (l : List α) (p : α → Prop) [DecidablePred p] (g : α → β) :
    (l.map (fun f => if p f then [g f] else [])).flatten = (l.filter (fun f => decide (p f))).map g := by
  induction l with
  | nil => rfl
  | cons a l ih => by_cases h : p a <;> simp [h, ih]

theorem fest_days : ∀ f ∈ lunarFestivals, 1 ≤ f.day ∧ f.day ≤ 30 := by decide

theorem yearEnd_eq (mo : Str) (day : ℕ) (h1 : 1 ≤ day) (h2 : day ≤ 30) (len : ℤ) (hl : len = 29 ∨ len = 30) (r : Marks) :
    yearEnd (mo ++ b "月" ++ b (rmc day)) len r =
      addMs r ((if mo = b "腊" ∧ (day : ℤ) = len then [(Cls.A, b "除夕 ", true)] else []) ++
        (if mo = b "腊" ∧ day = 23 then [(Cls.B, b "小年 ", false)] else [])) := by
  have k30 := key_eq mo day h1 h2 "腊" 30 (by omega) (by omega)
  have k29 := key_eq mo day h1 h2 "腊" 29 (by omega) (by omega)
  have k23 := key_eq mo day h1 h2 "腊" 23 (by omega) (by omega)
  unfold yearEnd
  rw [onB_eq, addMs_append]
  simp only [show "腊" ++ "月" ++ rmc 30 = "腊月三十" by decide, show "腊" ++ "月" ++ rmc 29 = "腊月廿九" by decide,
    show "腊" ++ "月" ++ rmc 23 = "腊月廿三" by decide] at k30 k29 k23
  simp only [k30, k29, k23]
  congr 1
  by_cases hm : mo = b "腊"
  · clear k30 k29 k23
    have e29 : (day : ℤ) = 29 ↔ day = 29 := by omega
    have e30 : (day : ℤ) = 30 ↔ day = 30 := by omega
    rcases hl with rfl | rfl
    · by_cases hd : day = 29 <;> simp [hm, hd, e29, addMs, addM]
    · by_cases hd : day = 30 <;> simp [hm, hd, e30, addMs, addM]
  · simp [hm, addMs]

theorem solarTerm_eq (jq : Str) (r : Marks) : solarTerm jq r = addMs r (termMarks jq) := by
  unfold solarTerm termMarks
  cases jq with
  | nil => simp [addMs]
  | cons c t =>
    by_cases h : c :: t = b "清明"
    · have hne : b "清明" ≠ [] := by decide
      simp [h, hne, addMs, addM]
    · simp [h, addMs, addM]

theorem nineMarks_eq (n dz : ℤ) (k j : ℕ) (hk : k < 9) (hj : j < 9) (h : n = dz + 9 * k + j) :
    nineMarks n dz = if j = 0 then [(Cls.B, b "『" ++ b ((strNum[k + 1]?).getD "") ++ b "九』 ", false)]
      else [(Cls.C, b ((strNum[k + 1]?).getD "") ++ b "九第" ++ decimal (j + 1) ++ b "天 ", false)] := by
  have key : ∀ (F : ℕ → ℕ → List Mark) (G : ℕ → ℕ → Prop) [∀ a b, Decidable (G a b)], (∀ a c, a < 9 → c < 9 → (G a c ↔ a = k ∧ c = j)) →
      ((List.range 9).flatMap fun a => (List.range 9).flatMap fun c => if G a c then F a c else []) = F k j := by
    intro F G _ hG
    have inner : ∀ a, a < 9 → ((List.range 9).flatMap fun c => if G a c then F a c else []) = if a = k then F k j else [] := by
      intro a ha
      by_cases hak : a = k
      · subst hak
        rw [if_pos rfl]
        have : ∀ c ∈ List.range 9, (if G a c then F a c else []) = if c = j then F a j else [] := by
          intro c hc
          have := hG a c ha (by simpa using hc)
          by_cases hcj : c = j
          · subst hcj; rw [if_pos (this.mpr ⟨rfl, rfl⟩), if_pos rfl]
          · rw [if_neg (fun h => hcj (this.mp h).2), if_neg hcj]
        rw [List.flatMap_congr this]
        interval_cases j <;> simp [List.range_succ]
      · rw [if_neg hak]
        have : ∀ c ∈ List.range 9, (if G a c then F a c else []) = [] := by
          intro c hc
          rw [if_neg (fun h => hak ((hG a c ha (by simpa using hc)).mp h).1)]
        rw [List.flatMap_congr this]; simp
    rw [List.flatMap_congr (fun a ha => inner a (by simpa using ha))]
    interval_cases k <;> simp [List.range_succ]
  unfold nineMarks
  exact key (fun k j => if j = 0 then [(Cls.B, b "『" ++ b ((strNum[k + 1]?).getD "") ++ b "九』 ", false)]
      else [(Cls.C, b ((strNum[k + 1]?).getD "") ++ b "九第" ++ decimal (j + 1) ++ b "天 ", false)])
    (fun a c => n = dz + 9 * (a : ℤ) + (c : ℤ)) (by intro a c ha hc; omega)

theorem nineMarks_nil (n dz : ℤ) (h : n < dz ∨ dz + 81 ≤ n) : nineMarks n dz = [] := by
  unfold nineMarks
  simp only [List.flatMap_eq_nil_iff, List.mem_range]
  intro k hk j hj
  rw [if_neg (by omega)]

theorem nines_eq (n dz : ℤ) (r : Marks) : nines (n - dz) r = some (addMs r (nineMarks n dz)) := by
  unfold nines
  by_cases h : n - dz ≥ 0 ∧ n - dz < 81
  · rw [if_pos h]
    set k := ((n - dz) / 9).toNat with hk
    set j := ((n - dz) % 9).toNat with hj
    have hk9 : k < 9 := by omega
    have hj9 : j < 9 := by omega
    rw [nineMarks_eq n dz k j hk9 hj9 (by omega)]
    have e1 : ((n - dz).tdiv 9 + 1).toNat = k + 1 := by
      rw [Int.tdiv_eq_ediv_of_nonneg (by omega)]; omega
    have e2 : (n - dz).tmod 9 = (j : ℤ) := by
      rw [Int.tmod_eq_emod_of_nonneg (by omega)]; omega
    rw [e1, e2]
    have e3 : strNum[k + 1]? = some ((strNum[k + 1]?).getD "") := by
      clear e1 e2
      interval_cases k <;> rfl
    rw [e3]
    simp only [Option.bind_eq_bind, Option.bind_some, Option.getD_some]
    by_cases hj0 : j = 0
    · rw [if_pos (by omega), if_pos hj0]; simp [addMs, addM]
    · rw [if_neg (by omega), if_neg hj0]; simp [addMs, addM]
  · rw [if_neg h, nineMarks_nil n dz (by omega)]; rfl


theorem countFrom_mod (M : ℕ) (hM : 0 < M) (g s : ℤ) (p : ℤ → Prop) [DecidablePred p] (hp : ∀ n, p n ↔ (n - 6) % M = g) :
    ∀ (q : ℕ), p (s + q) → countFrom p s (s + q) = q / M + 1 := by
  -- count over the first q+1 days: induct in steps of M
  have hcount : ∀ q : ℕ, countFrom p s (s + q) = ((List.range (q + 1)).filter (fun j : ℕ => decide (p (s + j)))).length := by
    intro q; unfold countFrom
    rw [show (s + (q:ℤ) - s + 1).toNat = q + 1 by omega]
  intro q hq
  rw [hcount]
  -- positions j ≤ q with p are exactly j ≡ q (mod M)
  have hiff : ∀ j : ℕ, j ≤ q → (p (s + j) ↔ (q - j) % M = 0) := by
    intro j hj
    rw [hp] at hq ⊢
    have hb : s + (q:ℤ) - 6 = (s + (j:ℤ) - 6) + ((q - j : ℕ) : ℤ) := by omega
    rw [hb] at hq
    constructor
    · intro h
      have : ((s + (j:ℤ) - 6) + ((q - j : ℕ) : ℤ)) % M = (s + (j:ℤ) - 6) % M := by rw [hq, h]
      have h2 := Int.emod_emod_of_dvd
      have h3 : (M : ℤ) ∣ ((s + (j:ℤ) - 6) + ((q - j : ℕ) : ℤ)) - (s + (j:ℤ) - 6) :=
        Int.dvd_of_emod_eq_zero (by rw [Int.sub_emod, this]; simp)
      rw [add_sub_cancel_left] at h3
      exact Nat.mod_eq_zero_of_dvd (by exact_mod_cast h3)
    · intro h
      have h3 : (M : ℤ) ∣ ((q - j : ℕ) : ℤ) := by exact_mod_cast Nat.dvd_of_mod_eq_zero h
      rw [← hq, Int.add_emod, Int.emod_eq_zero_of_dvd h3]; simp
  have h1 : ((List.range (q + 1)).filter (fun j : ℕ => decide (p (s + j)))) = ((List.range (q + 1)).filter (fun j : ℕ => decide ((q - j) % M = 0))) := by
    apply List.filter_congr
    intro j hj
    simp only [List.mem_range] at hj
    rw [decide_eq_decide]
    exact hiff j (by omega)
  rw [h1]
  clear h1 hiff hq hcount
  -- reverse
  have h2 : ((List.range (q + 1)).filter (fun j : ℕ => decide ((q - j) % M = 0))).length = ((List.range (q + 1)).filter (fun j : ℕ => decide (j % M = 0))).length := by
    have : ((List.range (q + 1)).filter (fun j : ℕ => decide ((q - j) % M = 0))) = (((List.range (q+1)).map (fun j => q - j)).filter (fun j : ℕ => decide (j % M = 0))).map (fun j => q - j) := by
      rw [List.filter_map, List.map_map]
      have : ∀ j ∈ (List.range (q + 1)).filter ((fun j : ℕ => decide (j % M = 0)) ∘ fun j => q - j), ((fun j => q - j) ∘ fun j => q - j) j = j := by
        intro j hj
        simp only [List.mem_filter, List.mem_range] at hj
        simp only [Function.comp]; omega
      rw [List.map_congr_left this, List.map_id']
      rfl
    rw [this, List.length_map]
    have hrev : (List.range (q+1)).map (fun j => q - j) = (List.range (q+1)).reverse := by
      rw [List.range_eq_range', List.reverse_range']
      simp [List.range_eq_range']
    rw [hrev, List.filter_reverse, List.length_reverse]
  rw [h2]
  clear h2
  rw [← List.countP_eq_length_filter]
  induction q with
  | zero => simp
  | succ q ih =>
    rw [List.range_succ, List.countP_append, ih, Nat.succ_div]
    simp only [List.countP_cons, List.countP_nil, decide_eq_true_eq]
    by_cases h : (q + 1) % M = 0
    · rw [if_pos h, if_pos (Nat.dvd_of_mod_eq_zero h)]
    · rw [if_neg h, if_neg (fun hd => h (Nat.mod_eq_zero_of_dvd hd))]

theorem nth_iff (M : ℕ) (hM : 0 < M) (g : ℤ) (p : ℤ → Prop) [DecidablePred p] (hp : ∀ n, p n ↔ (n - 6) % M = g) (k : ℕ) (s n : ℤ) :
    NthFrom p (k + 1) s n ↔ (M * k ≤ n - s ∧ n - s < M * (k + 1) ∧ p n) := by
  unfold NthFrom
  constructor
  · rintro ⟨h1, h2, h3⟩
    have := countFrom_mod M hM g s p hp (n - s).toNat (by rw [show s + ((n - s).toNat : ℤ) = n by omega]; exact h1)
    rw [show s + ((n - s).toNat : ℤ) = n by omega, h3] at this
    have hk : (n - s).toNat / M = k := by omega
    have a1 := Nat.div_mul_le_self (n - s).toNat M
    have a2 := Nat.lt_div_mul_add (a := (n - s).toNat) hM
    rw [hk] at a1 a2
    refine ⟨?_, ?_, h1⟩
    · have : ((k * M : ℕ) : ℤ) ≤ ((n - s).toNat : ℤ) := by exact_mod_cast a1
      rw [Int.toNat_of_nonneg (by omega)] at this
      push_cast at this; linarith
    · have : ((n - s).toNat : ℤ) < ((k * M + M : ℕ) : ℤ) := by exact_mod_cast a2
      rw [Int.toNat_of_nonneg (by omega)] at this
      push_cast at this; linarith
  · rintro ⟨h1, h2, h3⟩
    have h0 : 0 ≤ n - s := le_trans (by positivity) h1
    refine ⟨h3, by omega, ?_⟩
    have := countFrom_mod M hM g s p hp (n - s).toNat (by rw [show s + ((n - s).toNat : ℤ) = n by omega]; exact h3)
    rw [show s + ((n - s).toNat : ℤ) = n by omega] at this
    rw [this]
    congr 1
    have e : ((n - s).toNat : ℤ) = n - s := Int.toNat_of_nonneg h0
    apply Nat.div_eq_of_lt_le
    · zify; rw [e]; linarith
    · zify; rw [e]; linarith

theorem day_bytes : ∀ g : Fin 10, ∀ z : Fin 12,
    let nm := b ((GanZhi.strGan[g.val]?).getD "" ++ (GanZhi.strZhi[z.val]?).getD "")
    (∃ w, substr nm 0 3 = some w ∧ (w = b "庚" ↔ g.val = 6) ∧ (w = b "丙" ↔ g.val = 2)) ∧
    (∃ w, substr nm 3 6 = some w ∧ (w = b "未" ↔ z.val = 7)) := by
  have : ∀ g : Fin 10, ∀ z : Fin 12,
    let nm := b ((GanZhi.strGan[g.val]?).getD "" ++ (GanZhi.strZhi[z.val]?).getD "")
    (((substr nm 0 3).isSome ∧ ((substr nm 0 3).getD [] = b "庚" ↔ g.val = 6) ∧ ((substr nm 0 3).getD [] = b "丙" ↔ g.val = 2)) ∧
    ((substr nm 3 6).isSome ∧ ((substr nm 3 6).getD [] = b "未" ↔ z.val = 7))) := by decide +kernel
  intro g z nm
  obtain ⟨⟨a1, a2, a3⟩, a4, a5⟩ := this g z
  obtain ⟨w, hw⟩ := Option.isSome_iff_exists.mp a1
  obtain ⟨w', hw'⟩ := Option.isSome_iff_exists.mp a4
  rw [hw] at a2 a3
  rw [hw'] at a5
  exact ⟨⟨w, hw, a2, a3⟩, ⟨w', hw', a5⟩⟩

theorem dogDays_eq (u : LunarIn) (n xz lq mz xs : ℤ) (hx : u.cur_xz = n - xz) (hl : u.cur_lq = n - lq) (hm : u.cur_mz = n - mz) (hs : u.cur_xs = n - xs)
    (hd : u.Lday2 = b (GanZhi.name60 (n - 6))) (r : Marks) : dogDays u r = some (addMs r (dogMarks n xz lq mz xs)) := by
  obtain ⟨⟨w, hw, hw1, hw2⟩, w', hw', hw3⟩ := day_bytes ⟨((n - 6) % 10).toNat, by omega⟩ ⟨((n - 6) % 12).toNat, by omega⟩
  have hnm : b ((GanZhi.strGan[((n - 6) % 10).toNat]?).getD "" ++ (GanZhi.strZhi[((n - 6) % 12).toNat]?).getD "") = u.Lday2 := by rw [hd]; rfl
  simp only [hnm] at hw hw'
  unfold dogDays
  rw [hw, hw']
  simp only [Option.bind_eq_bind, Option.bind_some, hx, hl, hm, hs]
  have g6 : w = b "庚" ↔ hasStem 6 n := by rw [hw1]; unfold hasStem; simp only; omega
  have g2 : w = b "丙" ↔ hasStem 2 n := by rw [hw2]; unfold hasStem; simp only; omega
  have z7 : w' = b "未" ↔ hasBranch 7 n := by rw [hw3]; unfold hasBranch; simp only; omega
  have n3 := nth_iff 10 (by norm_num) 6 (hasStem 6) (fun n => Iff.rfl) 2 xz n
  have n4 := nth_iff 10 (by norm_num) 6 (hasStem 6) (fun n => Iff.rfl) 3 xz n
  have n1 := nth_iff 10 (by norm_num) 6 (hasStem 6) (fun n => Iff.rfl) 0 lq n
  have m1 := nth_iff 10 (by norm_num) 2 (hasStem 2) (fun n => Iff.rfl) 0 mz n
  have b1 := nth_iff 12 (by norm_num) 7 (hasBranch 7) (fun n => Iff.rfl) 0 xs n
  unfold dogMarks
  simp only [addMs_append]
  have step : ∀ (r : Marks) (P Q : Prop) [Decidable P] [Decidable Q] (t : Str), (P ↔ Q) →
      (if P then { r with B := r.B ++ t } else r) = addMs r (if Q then [(Cls.B, t, false)] else []) := by
    intro r P Q _ _ t h
    by_cases hP : P
    · rw [if_pos hP, if_pos (h.mp hP)]; simp [addMs, addM]
    · rw [if_neg hP, if_neg (fun hq => hP (h.mpr hq))]; rfl
  rw [step r _ (NthFrom (hasStem 6) 3 xz n) (b "初伏 ") (by rw [n3, g6]; push_cast; constructor <;> (rintro ⟨a, c, d⟩; exact ⟨by omega, by omega, d⟩))]
  rw [step _ _ (NthFrom (hasStem 6) 4 xz n) (b "中伏 ") (by rw [n4, g6]; push_cast; constructor <;> (rintro ⟨a, c, d⟩; exact ⟨by omega, by omega, d⟩))]
  rw [step _ _ (NthFrom (hasStem 6) 1 lq n) (b "末伏 ") (by rw [n1, g6]; push_cast; constructor <;> (rintro ⟨a, c, d⟩; exact ⟨by omega, by omega, d⟩))]
  rw [step _ _ (NthFrom (hasStem 2) 1 mz n) (b "入梅 ") (by rw [m1, g2]; push_cast; constructor <;> (rintro ⟨a, c, d⟩; exact ⟨by omega, by omega, d⟩))]
  rw [step _ _ (NthFrom (hasBranch 7) 1 xs n) (b "出梅 ") (by rw [b1, z7]; push_cast; constructor <;> (rintro ⟨a, c, d⟩; exact ⟨by omega, by omega, d⟩))]
  rfl

/-- the lunar fields of the day record say: lunar date `u`, solar term `jq`, day number `n`, and the terms that start the
counts fall on days `dz`, `xz`, `lq`, `mz`, `xs` -/
structure Says (x : LunarIn) (u : LunarDate) (n dz xz lq mz xs : ℤ) : Prop where
  mc : x.Lmc = u.month
  day1 : 1 ≤ u.day
  day30 : u.day ≤ 30
  dc : x.Ldc = b (rmc u.day)
  leap : x.Lleap = if u.leap then b "闰" else []
  next : x.Lmc2 = u.nextMonth
  dn : x.Ldn = u.len
  len : u.len = 29 ∨ u.len = 30
  cdz : x.cur_dz = n - dz
  cxz : x.cur_xz = n - xz
  clq : x.cur_lq = n - lq
  cmz : x.cur_mz = n - mz
  cxs : x.cur_xs = n - xs
  day2 : x.Lday2 = b (GanZhi.name60 (n - 6))

/-- C16, C17: the marks `getDayName2` adds are exactly: the traditional festivals of the lunar date (none in a leap
month), New Year's Eve on the last day of 腊月 before 正月, Little New Year; the solar term of the day; the nine nines;
the dog days and plum rains.  Month names other than 冬, which the calendar never produces: see `c16_laba_missing`. -/
theorem c17_marks (x : LunarIn) (u : LunarDate) (n dz xz lq mz xs : ℤ) (h : Says x u n dz xz lq mz xs)
    (hw : u.month ≠ b "冬") (r : Marks) :
    ∃ r', getDayName2 x r = some r' ∧
      (∀ c, r'.text c = r.text c ++ ofCls c (lunarMarks u ++ termMarks x.Ljq ++ nineMarks n dz ++ dogMarks n xz lq mz xs)) ∧
      r'.Fjia = (r.Fjia || anyOff (lunarMarks u ++ termMarks x.Ljq ++ nineMarks n dz ++ dogMarks n xz lq mz xs)) := by
  obtain ⟨e1, e2, e3, e4, e5, e6, e7, e8, e9, e10, e11, e12, e13, e14⟩ := h
  suffices hh : getDayName2 x r = some (addMs r (lunarMarks u ++ termMarks x.Ljq ++ nineMarks n dz ++ dogMarks n xz lq mz xs)) by
    exact ⟨_, hh, fun c => (addMs_text c _ _).1, (addMs_text .A _ _).2⟩
  have hd : x.Lmc ++ b "月" ++ x.Ldc = u.month ++ b "月" ++ b (rmc u.day) := by rw [e1, e4]
  have hne : u.month ++ b "月" ++ b (rmc u.day) ≠ b "冬月初八" := by
    have := key_eq u.month u.day e2 e3 "冬" 8 (by omega) (by omega)
    rw [show "冬" ++ "月" ++ rmc 8 = "冬月初八" by decide] at this
    intro hc
    exact hw (this.mp hc).1
  unfold getDayName2
  simp only [hd, Option.bind_eq_bind]
  rw [e9]
  have s1 : (if x.Lleap ≠ b "闰" then lunarDates (u.month ++ b "月" ++ b (rmc u.day)) r else r) =
      addMs r (if u.leap then [] else (lunarFestivals.filter (fun f => decide (u.month = b f.month ∧ u.day = f.day))).map (fun f => (f.cls, b f.text, f.off))) := by
    rw [e5]
    cases u.leap with
    | true => simp [addMs]
    | false =>
      rw [if_pos (by simp; decide), lunarDates_eq _ _ hne, flatten_filter]
      simp only [Bool.false_eq_true, if_false]
      congr 2
      apply List.filter_congr
      intro f hf
      rw [decide_eq_decide]
      exact key_eq u.month u.day e2 e3 f.month f.day (fest_days f hf).1 (fest_days f hf).2
  have s2 : ∀ r : Marks, (if x.Lmc2 = b "正" then yearEnd (u.month ++ b "月" ++ b (rmc u.day)) x.Ldn r else r) =
      addMs r ((if u.nextMonth = b "正" ∧ u.month = b "腊" ∧ (u.day : ℤ) = u.len then [(Cls.A, b "除夕 ", true)] else []) ++
        (if u.nextMonth = b "正" ∧ u.month = b "腊" ∧ u.day = 23 then [(Cls.B, b "小年 ", false)] else [])) := by
    intro r
    rw [e6, e7]
    by_cases hn : u.nextMonth = b "正"
    · simp only [hn, true_and, if_true]
      exact yearEnd_eq u.month u.day e2 e3 u.len e8 r
    · simp [hn, addMs]
  rw [s1, s2, solarTerm_eq, nines_eq]
  simp only [Option.bind_some]
  rw [dogDays_eq x n xz lq mz xs e10 e11 e12 e13 e14]
  simp only [lunarMarks, addMs_append]

/-- the Laba festival (8th of 腊月) is never marked: the code compares with month name 冬, which no month has.  On the 8th
of 腊月 the lunar date gives no mark at all. -/
theorem c16_laba_missing (u : LunarDate) (h1 : u.month = b "腊") (h2 : u.day = 8) (h3 : u.len = 29 ∨ u.len = 30) : lunarMarks u = [] := by
  have hf : lunarFestivals.filter (fun f => decide (b "腊" = b f.month ∧ 8 = f.day)) = [] := by decide +kernel
  unfold lunarMarks
  rw [h1, h2, hf]
  rcases h3 with h3 | h3 <;> simp [h3]

/-- a concrete day meeting the hypotheses: New Year's Eve, 9 February 2024 (day 8805), the 30th of a 30-day month -/
example : Says ⟨b "腊", b "三十", [], b "正", 30, [], 49, 232, 185, 248, 217, b (GanZhi.name60 (8805 - 6))⟩ ⟨b "腊", 30, false, 30, b "正"⟩ 8805
    (8805 - 49) (8805 - 232) (8805 - 185) (8805 - 248) (8805 - 217) :=
  ⟨rfl, by decide, by decide, by decide, rfl, rfl, rfl, Or.inr rfl, by norm_num, by norm_num, by norm_num, by norm_num, by norm_num, rfl⟩

example : lunarMarks ⟨b "腊", 30, false, 30, b "正"⟩ = [(Cls.A, b "除夕 ", true)] ∧
    lunarMarks ⟨b "正", 1, false, 29, b "二"⟩ = [(Cls.A, b "春节 ", true)] ∧ lunarMarks ⟨b "正", 1, true, 29, b "二"⟩ = [] := by decide +kernel

/-- C16, all festivals but 腊八节 (which the code looks for under a month name it never uses, `c16_laba_missing`): the
red festivals of the lunar date. -/
theorem c16_marks_partial (x : LunarIn) (u : LunarDate) (n dz xz lq mz xs : ℤ) (h : Says x u n dz xz lq mz xs)
    (hw : u.month ≠ b "冬") (r : Marks) :
    ∃ r', getDayName2 x r = some r' ∧
      ∀ c, r'.text c = r.text c ++ ofCls c (lunarMarks u ++ termMarks x.Ljq ++ nineMarks n dz ++ dogMarks n xz lq mz xs) :=
  let ⟨r', h1, h2, _⟩ := c17_marks x u n dz xz lq mz xs h hw r
  ⟨r', h1, h2⟩

end Verif.Fest
