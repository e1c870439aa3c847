import Verif.FestivalSpec2
import Verif.Props.Month
import Verif.Props.NumText
import Verif.Props.Strings

namespace Verif.Fest

open Verif.NumText

/-! ## C14, C15: getDayName -/

theorem two0_inj : ∀ m n : Fin 32, two0 (m.val : ℤ) = two0 (n.val : ℤ) → m = n := by decide +kernel

theorem two0_len : ∀ m : Fin 32, (two0 (m.val : ℤ)).length = 2 := by decide +kernel

theorem dec_inj : ∀ m n : Fin 10, decimal (m.val : ℤ) = decimal (n.val : ℤ) → m = n := by decide +kernel

theorem dec_len : ∀ m : Fin 10, (decimal (m.val : ℤ)).length = 1 := by decide +kernel

theorem two0_inj' (m n : ℤ) (h1 : 0 ≤ m) (h2 : m < 32) (h3 : 0 ≤ n) (h4 : n < 32) : two0 m = two0 n ↔ m = n := by
  constructor
  · intro h
    have := two0_inj ⟨m.toNat, by omega⟩ ⟨n.toNat, by omega⟩ (by simpa [Int.toNat_of_nonneg h1, Int.toNat_of_nonneg h3] using h)
    simp at this; omega
  · rintro rfl; rfl

theorem two0_len' (m : ℤ) (h1 : 0 ≤ m) (h2 : m < 32) : (two0 m).length = 2 := by
  simpa [Int.toNat_of_nonneg h1] using two0_len ⟨m.toNat, by omega⟩

theorem dec_inj' (m n : ℤ) (h1 : 0 ≤ m) (h2 : m < 10) (h3 : 0 ≤ n) (h4 : n < 10) : decimal m = decimal n ↔ m = n := by
  constructor
  · intro h
    have := dec_inj ⟨m.toNat, by omega⟩ ⟨n.toNat, by omega⟩ (by simpa [Int.toNat_of_nonneg h1, Int.toNat_of_nonneg h3] using h)
    simp at this; omega
  · rintro rfl; rfl

theorem dec_len' (m : ℤ) (h1 : 0 ≤ m) (h2 : m < 10) : (decimal m).length = 1 := by
  simpa [Int.toNat_of_nonneg h1] using dec_len ⟨m.toNat, by omega⟩

theorem key_inj (m n k m' n' k' : ℤ) (h : 0 ≤ m ∧ m < 32 ∧ 0 ≤ m' ∧ m' < 32 ∧ 0 ≤ n ∧ n < 10 ∧ 0 ≤ n' ∧ n' < 10 ∧ 0 ≤ k ∧ k < 10 ∧ 0 ≤ k' ∧ k' < 10) :
    two0 m ++ decimal n ++ decimal k = two0 m' ++ decimal n' ++ decimal k' ↔ m = m' ∧ n = n' ∧ k = k' := by
  obtain ⟨a1, a2, a3, a4, a5, a6, a7, a8, a9, a10, a11, a12⟩ := h
  constructor
  · intro h
    rw [List.append_assoc, List.append_assoc] at h
    obtain ⟨e1, e2⟩ := List.append_inj h (by rw [two0_len' _ a1 a2, two0_len' _ a3 a4])
    obtain ⟨e3, e4⟩ := List.append_inj e2 (by rw [dec_len' _ a5 a6, dec_len' _ a7 a8])
    exact ⟨(two0_inj' _ _ a1 a2 a3 a4).mp e1, (dec_inj' _ _ a5 a6 a7 a8).mp e3, (dec_inj' _ _ a9 a10 a11 a12).mp e4⟩
  · rintro ⟨rfl, rfl, rfl⟩; rfl

/-- adding a festival of class `c` -/
def add (r : Marks) (c : Cls) (name : String) : Marks :=
  match c with
  | .A => { r with A := r.A ++ (b name ++ b " "), Fjia := true }
  | .B => { r with B := r.B ++ (b name ++ b " ") }
  | .C => { r with C := r.C ++ (b name ++ b " ") }

def clsByte : Cls → Str
  | .A => b "#"
  | .B => b "I"
  | .C => b "."

theorem addByType_eq (r : Marks) (c : Cls) (name : String) : addByType r (clsByte c) (b name) = add r c name := by
  have h1 : b "#" ≠ b "I" ∧ b "#" ≠ b "." ∧ b "I" ≠ b "#" ∧ b "I" ≠ b "." ∧ b "." ≠ b "#" ∧ b "." ≠ b "I" := by decide +kernel
  obtain ⟨e1, e2, e3, e4, e5, e6⟩ := h1
  cases c <;> simp [addByType, clsByte, add, e1, e2, e3, e4, e5, e6]

/-- the table string `e` is the record `f` -/
def fixedOk (e : String) (f : Fixed) : Bool :=
  let s := b e
  let t := s.drop 2
  decide (substr s 0 2 = some (two0 f.day) ∧ 1 ≤ f.day ∧ f.day ≤ 31 ∧ substr s 2 (lenMinus s 2) = some t ∧ substr t 0 1 = some (clsByte f.cls)) &&
  match f.last with
  | some l => decide (substr t 5 1 = some (b "-") ∧ ((substr t 1 4).bind stoi) = some f.first ∧ ((substr t 6 4).bind stoi) = some l ∧
      substr t 10 (lenMinus t 10) = some (b f.name))
  | none => decide ((∃ x, substr t 5 1 = some x ∧ x ≠ b "-") ∧ f.first = 1850 ∧ substr t 1 (lenMinus t 1) = some (b f.name))

def allOk {α β : Type} (p : α → β → Bool) : List α → List β → Bool
  | [], [] => true
  | x :: xs, y :: ys => p x y && allOk p xs ys
  | _, _ => false


theorem allOk_length {α β : Type} (p : α → β → Bool) : ∀ (l : List α) (k : List β), allOk p l k = true → l.length = k.length
  | [], [], _ => rfl
  | x :: xs, y :: ys, h => by
    simp only [allOk, Bool.and_eq_true] at h
    simp [allOk_length p xs ys h.2]
  | [], _ :: _, h => by simp [allOk] at h
  | _ :: _, [], h => by simp [allOk] at h

theorem fixedStep_eq (y d : ℤ) (hd : 1 ≤ d ∧ d ≤ 31) (r : Marks) (e : String) (f : Fixed) (h : fixedOk e f = true) :
    fixedStep y (two0 d) r (b e) =
      some (if (f.day : ℤ) = d ∧ f.first ≤ y ∧ (∀ l, f.last = some l → y ≤ l) then add r f.cls f.name else r) := by
  unfold fixedOk at h
  simp only [Bool.and_eq_true, decide_eq_true_eq] at h
  obtain ⟨⟨h1, h2, h3, h4, h5⟩, h6⟩ := h
  unfold fixedStep
  simp only [h1, h4, h5, Option.bind_eq_bind, Option.bind_some]
  have hk := two0_inj' (f.day : ℤ) d (by omega) (by omega) (by omega) (by omega)
  by_cases hfd : (f.day : ℤ) = d
  · have : ¬ (two0 (f.day : ℤ) ≠ two0 d) := by rw [hfd]; simp
    rw [if_neg this]
    cases hl : f.last with
    | some l =>
      rw [hl] at h6
      simp only [decide_eq_true_eq] at h6
      obtain ⟨g1, g2, g3, g4⟩ := h6
      obtain ⟨x1, hx1, hx1'⟩ := Option.bind_eq_some_iff.mp g2
      obtain ⟨x2, hx2, hx2'⟩ := Option.bind_eq_some_iff.mp g3
      simp only [g1, hx1, hx1', hx2, hx2', g4, Option.bind_some, if_true]
      by_cases a1 : y < f.first
      · rw [if_pos a1, if_neg (by omega)]; rfl
      · rw [if_neg a1]
        by_cases a2 : y > l
        · rw [if_pos a2, if_neg (by rintro ⟨-, -, h⟩; have := h l rfl; omega)]; rfl
        · rw [if_neg a2, if_pos ⟨hfd, by omega, by rintro l' ⟨⟩; omega⟩, addByType_eq]; rfl
    | none =>
      rw [hl] at h6
      simp only [decide_eq_true_eq] at h6
      obtain ⟨⟨x, g1, g1'⟩, g2, g3⟩ := h6
      simp only [g1, g3, Option.bind_some, if_neg g1']
      by_cases a1 : y < 1850
      · rw [if_pos a1, if_neg (by omega)]; rfl
      · rw [if_neg a1, if_pos ⟨hfd, by omega, by simp⟩, addByType_eq]; rfl
  · have : two0 (f.day : ℤ) ≠ two0 d := fun h => hfd (hk.mp h)
    rw [if_pos this, if_neg (fun h => hfd h.1)]; rfl

/-- the table string `e` is the record `f` -/
def weeklyOk (e : String) (f : Weekly) : Bool :=
  let s := b e
  decide (substr s 0 4 = some (two0 f.month ++ decimal f.nth ++ decimal f.weekday) ∧ 1 ≤ f.month ∧ f.month ≤ 12 ∧ f.nth ≤ 5 ∧ f.weekday < 7 ∧
    (f.nth = 5 → f.weekday = 0) ∧
    substr s 4 1 = some (clsByte f.cls) ∧ substr s 5 (lenMinus s 5) = some (b f.name))

theorem weeklyStep_eq (m w1 w2 wd : ℤ) (hm : 1 ≤ m ∧ m ≤ 12) (h1 : 0 ≤ w1 ∧ w1 < 10) (h2 : 0 ≤ w2 ∧ w2 < 10) (hw : 0 ≤ wd ∧ wd < 7)
    (r : Marks) (e : String) (f : Weekly) (h : weeklyOk e f = true) :
    weeklyStep (two0 m ++ decimal w1 ++ decimal wd) (two0 m ++ decimal w2 ++ decimal wd) r (b e) =
      some (if (f.month : ℤ) = m ∧ (f.weekday : ℤ) = wd ∧ ((f.nth : ℤ) = w1 ∨ (f.nth : ℤ) = w2) then add r f.cls f.name else r) := by
  unfold weeklyOk at h
  simp only [decide_eq_true_eq] at h
  obtain ⟨g1, g2, g3, g4, g5, g6, g7, g8⟩ := h
  unfold weeklyStep
  simp only [g1, g7, g8, Option.bind_eq_bind, Option.bind_some]
  have k1 := key_inj f.month f.nth f.weekday m w1 wd (by omega)
  have k2 := key_inj f.month f.nth f.weekday m w2 wd (by omega)
  by_cases hc : (f.month : ℤ) = m ∧ (f.weekday : ℤ) = wd ∧ ((f.nth : ℤ) = w1 ∨ (f.nth : ℤ) = w2)
  · have hn : ¬ (two0 (f.month : ℤ) ++ decimal f.nth ++ decimal f.weekday ≠ two0 m ++ decimal w1 ++ decimal wd ∧
        two0 (f.month : ℤ) ++ decimal f.nth ++ decimal f.weekday ≠ two0 m ++ decimal w2 ++ decimal wd) := by
      rintro ⟨n1, n2⟩
      obtain ⟨c1, c2, c3 | c3⟩ := hc
      · exact n1 (k1.mpr ⟨c1, c3, c2⟩)
      · exact n2 (k2.mpr ⟨c1, c3, c2⟩)
    rw [if_neg hn, if_pos hc, addByType_eq]; rfl
  · have hn : two0 (f.month : ℤ) ++ decimal f.nth ++ decimal f.weekday ≠ two0 m ++ decimal w1 ++ decimal wd ∧
        two0 (f.month : ℤ) ++ decimal f.nth ++ decimal f.weekday ≠ two0 m ++ decimal w2 ++ decimal wd := by
      refine ⟨fun hh => ?_, fun hh => ?_⟩
      · have := k1.mp hh; exact hc ⟨this.1, this.2.2, Or.inl this.2.1⟩
      · have := k2.mp hh; exact hc ⟨this.1, this.2.2, Or.inr this.2.1⟩
    rw [if_pos hn, if_neg hc]; rfl

/-- adding the selected entries of a table, in order -/
def addAll {β : Type} (sel : β → Bool) (cls : β → Cls) (name : β → String) (r : Marks) (l : List β) : Marks :=
  l.foldl (fun r f => if sel f then add r (cls f) (name f) else r) r

theorem foldlM_table {β : Type} (step : Marks → Str → Option Marks) (ok : String → β → Bool) (sel : β → Bool) (cls : β → Cls) (name : β → String)
    (hstep : ∀ r e f, ok e f = true → step r (b e) = some (if sel f then add r (cls f) (name f) else r)) :
    ∀ (l : List String) (k : List β) (r : Marks), allOk ok l k = true → (l.map b).foldlM step r = some (addAll sel cls name r k)
  | [], [], r, _ => rfl
  | x :: xs, y :: ys, r, h => by
    simp only [allOk, Bool.and_eq_true] at h
    simp only [List.map_cons, List.foldlM_cons, hstep r x y h.1, Option.bind_eq_bind, Option.bind_some, addAll, List.foldl_cons]
    exact foldlM_table step ok sel cls name hstep xs ys _ h.2
  | [], _ :: _, _, h => by simp [allOk] at h
  | _ :: _, [], _, h => by simp [allOk] at h

/-- text of a class in the day record -/
def Marks.text (r : Marks) : Cls → Str
  | .A => r.A
  | .B => r.B
  | .C => r.C

theorem addAll_text {β : Type} (sel : β → Bool) (cls : β → Cls) (name : β → String) (c : Cls) : ∀ (l : List β) (r : Marks),
    (addAll sel cls name r l).text c = r.text c ++ texts ((l.filter (fun f => decide (cls f = c) && sel f)).map name) ∧
    (addAll sel cls name r l).Fjia = (r.Fjia || !((l.filter (fun f => decide (cls f = Cls.A) && sel f)).isEmpty)) := by
  intro l
  induction l with
  | nil => intro r; simp [addAll, texts]
  | cons f l ih =>
    intro r
    have e := ih (if sel f then add r (cls f) (name f) else r)
    simp only [addAll, List.foldl_cons] at e ⊢
    rw [e.1, e.2]
    by_cases hs : sel f = true
    · rw [if_pos hs]
      constructor
      · by_cases hc : cls f = c
        · subst hc
          simp only [List.filter_cons, hs, decide_true, Bool.and_self, if_true, List.map_cons, texts, List.flatMap_cons]
          cases cls f <;> simp [add, Marks.text, List.append_assoc]
        · simp only [List.filter_cons, hc, decide_false, Bool.false_and]
          simp only [Bool.false_eq_true, if_false]
          congr 1
          cases hcf : cls f <;> cases c <;> simp_all [add, Marks.text]
      · cases hcf : cls f <;> simp [add, hcf, hs]
    · rw [if_neg hs]
      simp [hs]

/-- the Gregorian fields of a sheet day that `getDayName` reads -/
def dayIn (e : Cal.SheetDay) : DayIn := ⟨e.y, e.m, e.d, e.week, e.week0, e.weeki, e.weekN⟩

theorem fixed_table (k : Fin 12) : allOk fixedOk ((sFtv[k.val]?).getD []) (fixedDays.filter (fun f => f.month = k.val + 1)) = true := by
  revert k; decide +kernel

theorem fixed_len : sFtv.length = 12 := by decide +kernel

theorem weekly_table : allOk weeklyOk wFtv weeklyDays = true := by decide +kernel


/-- which of its kind a weekday is in the month: number of days up to index `i` with the same weekday -/
def nthOf (days : List Cal.SheetDay) (i : ℕ) (wd : ℤ) : ℕ := ((days.take (i + 1)).filter (fun e => decide (e.week = wd))).length

/-- no later day of the month has this weekday -/
def isLast (days : List Cal.SheetDay) (i : ℕ) (wd : ℤ) : Prop := ∀ e ∈ days.drop (i + 1), e.week ≠ wd

instance (days : List Cal.SheetDay) (i : ℕ) (wd : ℤ) : Decidable (isLast days i wd) := by unfold isLast; infer_instance

theorem count_week : ∀ (w0 : Fin 7) (i : Fin 31),
    ((List.range (i.val + 1)).filter (fun j : ℕ => decide (((w0.val : ℤ) + j) % 7 = ((w0.val : ℤ) + i.val) % 7))).length = i.val / 7 + 1 := by
  decide +kernel

theorem nthOf_eq (y m w0 : ℤ) (hw : 0 ≤ w0 ∧ w0 < 7) (n i : ℕ) (hi : i < n) (hn : n ≤ 31) :
    nthOf ((List.range n).map (Cal.sheetEntry y m w0)) i ((w0 + i) % 7) = i / 7 + 1 := by
  unfold nthOf
  rw [← List.map_take, List.take_range, min_eq_left (by omega), List.filter_map, List.length_map]
  have := count_week ⟨w0.toNat, by omega⟩ ⟨i, by omega⟩
  simp only [Int.toNat_of_nonneg hw.1] at this
  rw [← this]
  rfl

theorem isLast_sunday (y m w0 : ℤ) (hw : 0 ≤ w0 ∧ w0 < 7) (n i : ℕ) (hi : i < n) (hs : (w0 + i) % 7 = 0) :
    isLast ((List.range n).map (Cal.sheetEntry y m w0)) i 0 ↔ (w0 + i) / 7 = (w0 + n - 1) / 7 + 1 - 1 := by
  unfold isLast
  constructor
  · intro h
    by_contra hc
    have hlt : i + 7 < n := by omega
    have hmem : Cal.sheetEntry y m w0 (i + 7) ∈ ((List.range n).map (Cal.sheetEntry y m w0)).drop (i + 1) := by
      rw [List.mem_drop_iff_getElem]
      exact ⟨6, by simp; omega, by simp⟩
    apply h _ hmem
    simp only [Cal.sheetEntry]
    push_cast; omega
  · intro h e he
    rw [List.mem_drop_iff_getElem] at he
    obtain ⟨j, hj, rfl⟩ := he
    simp only [List.getElem_map, List.getElem_range, Cal.sheetEntry, List.length_map, List.length_range] at hj ⊢
    push_cast
    omega

theorem isEmpty_append' {α : Type} (l k : List α) : (l ++ k).isEmpty = (l.isEmpty && k.isEmpty) := by cases l <;> simp

theorem filter_month (l : List Fixed) (m : ℕ) (p : Fixed → Bool) (q : Fixed → Bool) (h : ∀ f ∈ l, p f = (decide (f.month = m) && q f)) :
    (l.filter (fun f => f.month = m)).filter q = l.filter p := by
  rw [List.filter_filter]
  apply List.filter_congr
  intro f hf
  rw [h f hf, Bool.and_comm]

/-- C14, C15: on every day of every month sheet, the texts of each class are exactly the names of the fixed-date
festivals of that Gregorian date in force in that year and of the weekday festivals of that day (n-th weekday of the month,
or the last one), and the day is marked off work exactly on weekends and holidays (besides what was marked before). -/
theorem c15_festivals (y m : ℤ) (h : Cal.MonthInRange y m) :
    ∃ sh, Cal.monthSheet y m = some sh ∧ ∀ (i : ℕ) (e : Cal.SheetDay), sh.day[i]? = some e → ∀ r : Marks,
      ∃ r', getDayName (dayIn e) r = some r' ∧
        (∀ c, r'.text c = r.text c ++ texts (namesOn c y m e.d e.week (nthOf sh.day i e.week) (isLast sh.day i e.week))) ∧
        r'.Fjia = (r.Fjia || decide (e.week = 0 ∨ e.week = 6) ||
          !(namesOn .A y m e.d e.week (nthOf sh.day i e.week) (isLast sh.day i e.week)).isEmpty) := by
  obtain ⟨h1, h2, h3, h4⟩ := id h
  have hmd := Cal.monthDays_bounds y m
  have hv := Cal.first_valid y m h1 h2
  refine ⟨_, Cal.monthSheet_eq y m h1 h2 h.inRange h4, ?_⟩
  intro i e he r
  simp only [List.getElem?_map] at he
  obtain ⟨j, hj, rfl⟩ := Option.map_eq_some_iff.mp he
  obtain ⟨hlt, rfl⟩ := List.getElem?_eq_some_iff.mp hj
  simp only [List.getElem_range, List.length_range] at hlt ⊢
  obtain ⟨vi, ni⟩ := Cal.iterate_next ⟨y, m, 1⟩ hv i
  simp only at ni
  have hin := (Cal.in_month _ vi y m h1 h2).mpr (by omega)
  obtain ⟨-, ⟨hd1, hd2⟩, -⟩ := Cal.valid_bounds vi
  set w0 := (Cal.dayNum y m 1 + 1) % 7 with hw0
  have hw : 0 ≤ w0 ∧ w0 < 7 := by omega
  set days := (List.range (Cal.monthDays y m).toNat).map (Cal.sheetEntry y m w0) with hdays
  set d := (Cal.CDate.next^[i] ⟨y, m, 1⟩).d with hd
  have hnth := nthOf_eq y m w0 hw (Cal.monthDays y m).toNat i hlt (by omega)
  have hlast := isLast_sunday y m w0 hw (Cal.monthDays y m).toNat i hlt
  rw [← hdays] at hnth hlast
  set wd := (w0 + (i : ℤ)) % 7 with hwd
  have hweek : (Cal.sheetEntry y m w0 i).week = wd := rfl
  have hdd : (Cal.sheetEntry y m w0 i).d = d := rfl
  rw [hweek, hdd]
  have tblk := fixed_table ⟨(m - 1).toNat, by omega⟩
  have hlen := fixed_len
  obtain ⟨tbl, htbl⟩ : ∃ t, sFtv[(m - 1).toNat]? = some t := by
    rw [List.getElem?_eq_getElem (by omega)]; exact ⟨_, rfl⟩
  simp only [htbl, Option.getD_some] at tblk
  have hu : dayIn (Cal.sheetEntry y m w0 i) = ⟨y, m, d, wd, w0, (w0 + (i : ℤ)) / 7, (w0 + Cal.monthDays y m - 1) / 7 + 1⟩ := rfl
  rw [hu]
  unfold getDayName
  have hm1 : ¬ (m - 1 < 0) := by omega
  simp only [if_neg hm1]
  simp only [htbl, Option.bind_eq_bind, Option.bind_some]
  set r1 : Marks := if wd = 0 ∨ wd = 6 then { r with Fjia := true } else r with hr1
  rw [foldlM_table (fixedStep y (two0 d)) fixedOk
    (fun f => decide ((f.day : ℤ) = d ∧ f.first ≤ y ∧ (∀ l, f.last = some l → y ≤ l))) (·.cls) (·.name)
    (fun r e f hf => by rw [fixedStep_eq y d ⟨hd1, hd2⟩ r e f hf]; simp only [decide_eq_true_eq]) tbl _ _ tblk]
  simp only [Option.bind_some]
  set r2 := addAll (fun f : Fixed => decide ((f.day : ℤ) = d ∧ f.first ≤ y ∧ (∀ l, f.last = some l → y ≤ l))) (·.cls) (·.name) r1
    (fixedDays.filter (fun f => f.month = (m - 1).toNat + 1)) with hr2
  set w1 : ℤ := if wd ≥ w0 then (w0 + (i : ℤ)) / 7 + 1 else (w0 + (i : ℤ)) / 7 with hw1
  have hw1' : w1 = ((i / 7 + 1 : ℕ) : ℤ) := by rw [hw1]; push_cast; split_ifs <;> omega
  have hmn : ((Cal.monthDays y m).toNat : ℤ) = Cal.monthDays y m := Int.toNat_of_nonneg (by omega)
  rw [hmn] at hlast
  set w2 : ℤ := if (w0 + (i : ℤ)) / 7 = (w0 + Cal.monthDays y m - 1) / 7 + 1 - 1 then 5 else w1 with hw2
  rw [foldlM_table (weeklyStep (two0 m ++ decimal w1 ++ decimal wd) (two0 m ++ decimal w2 ++ decimal wd)) weeklyOk
    (fun f => decide (f.On m wd (nthOf days i wd) (isLast days i wd))) (·.cls) (·.name) ?_ wFtv weeklyDays r2 weekly_table]
  · refine ⟨_, rfl, ?_, ?_⟩
    · intro c
      rw [(addAll_text _ _ _ c _ _).1, hr2, (addAll_text _ _ _ c _ _).1, List.append_assoc]
      have e1 : r1.text c = r.text c := by rw [hr1]; split_ifs <;> cases c <;> rfl
      rw [e1, namesOn]
      unfold texts
      rw [List.flatMap_append]
      congr 3
      · congr 1
        apply filter_month
        intro f hf
        rw [← Bool.decide_and, ← Bool.decide_and]
        apply decide_eq_decide.mpr
        unfold Fixed.On
        constructor
        · rintro ⟨a1, a2, a3⟩; exact ⟨by omega, a1, a3⟩
        · rintro ⟨a1, a2, a3⟩; exact ⟨a2, by omega, a3⟩
      · congr 1
        apply List.filter_congr
        intro f hf
        rw [Bool.decide_and]
    · rw [(addAll_text _ _ _ .A _ _).2, hr2, (addAll_text _ _ _ .A _ _).2]
      have e1 : r1.Fjia = (r.Fjia || decide (wd = 0 ∨ wd = 6)) := by rw [hr1]; split_ifs with hh <;> simp [hh]
      rw [e1, Bool.or_assoc]
      congr 1
      rw [namesOn, isEmpty_append', List.isEmpty_map, List.isEmpty_map, Bool.not_and]
      congr 2
      · congr 1
        apply filter_month
        intro f hf
        rw [← Bool.decide_and, ← Bool.decide_and]
        apply decide_eq_decide.mpr
        unfold Fixed.On
        constructor
        · rintro ⟨a1, a2, a3⟩; exact ⟨by omega, a1, a3⟩
        · rintro ⟨a1, a2, a3⟩; exact ⟨a2, by omega, a3⟩
  · intro r e f hf
    rw [weeklyStep_eq m w1 w2 wd ⟨h1, h2⟩ (by omega) (by rw [hw2]; split_ifs <;> omega) (by omega) r e f hf]
    simp only [decide_eq_true_eq]
    congr 2
    unfold weeklyOk at hf
    simp only [decide_eq_true_eq] at hf
    obtain ⟨-, -, -, -, -, g6, -, -⟩ := hf
    apply propext
    unfold Weekly.On
    rw [hnth]
    refine and_congr_right (fun a1 => and_congr_right (fun a2 => ?_))
    by_cases hrow : (w0 + (i : ℤ)) / 7 = (w0 + Cal.monthDays y m - 1) / 7 + 1 - 1
    · have e2 : w2 = 5 := by rw [hw2, if_pos hrow]
      constructor
      · rintro (g | g)
        · left; omega
        · right
          have : f.nth = 5 := by omega
          have hwz : wd = 0 := by have := g6 this; omega
          refine ⟨this, ?_⟩
          rw [hwz]
          exact (hlast hwz).mpr hrow
      · rintro (g | g)
        · left; omega
        · right; omega
    · have e2 : w2 = w1 := by rw [hw2, if_neg hrow]
      constructor
      · rintro (g | g)
        · left; omega
        · left; omega
      · rintro (g | ⟨g, g'⟩)
        · left; omega
        · exfalso
          have hwz : wd = 0 := by have := g6 g; omega
          rw [hwz] at g'
          exact hrow ((hlast hwz).mp g')


/-- a concrete day: 2024-09-29 is the last Sunday of the month and its fifth -/
example : (Cal.monthSheet 2024 9).bind (fun sh => (sh.day[28]?).bind (fun e => (getDayName (dayIn e) ⟨false, [], [], []⟩).map
    (fun r => (r.Fjia, r.B, nthOf sh.day 28 e.week)))) = some (true, b "世界海事日 ", 5) := by decide +kernel

/-- National Day is listed on 1 October from 1949 on and not before -/
example : namesOn .A 1949 10 1 6 1 False = ["国庆节"] ∧ namesOn .A 1948 10 1 5 1 False = [] := by decide +kernel

end Verif.Fest
