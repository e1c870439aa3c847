import Verif.RiseSet
import Verif.Props.Geom

/-!
# C49 (table of risings and settings) and C55 (hour angles, nearest noon, times under uniform motion); exact arithmetic
-/

namespace Verif.Geom

open Real

/-! ## C49: `calcRTS` -/

/-- the text in a moon column after `calcRTS`: among the events of the days −1 … n, the last one that falls on the day `c` of the table; the text that was there
before if there is none -/
noncomputable def lastOn (timeStr : ℝ → String) (jd : ℤ) (sq : ℝ) (f : ℤ → ℝ) (days : List ℤ) (c : ℕ) (old : String) : String :=
  (((days.filter (fun i => ⌊f i - sq + 0.5⌋ - jd = c)).getLast?).map (fun i => timeStr (f i - sq))).getD old

/-- the days −1, 0, …, n -/
def days (n : ℕ) : List ℤ := (List.range (n + 2)).map (fun k : ℕ => (k : ℤ) - 1)

theorem setRow_spec (l : List Row) (i : ℕ) (f : Row → Row) (hi : i < l.length) :
    ∃ l', setRow l i f = some l' ∧ ∀ c, l'[c]? = (l[c]?).map (fun r => if c = i then f r else r) := by
  refine ⟨l.set i (f l[i]), by simp [setRow, hi], fun c => ?_⟩
  rw [List.getElem?_set]
  by_cases hc : i = c
  · subst hc; simp [hi]
  · rw [if_neg hc]
    have : (fun r => if c = i then f r else r) = fun r : Row => r := by funext r; rw [if_neg (Ne.symm hc)]
    rw [this]; simp

theorem same_length {l l' : List Row} {g : ℕ → Row → Row} (h : ∀ c, l'[c]? = (l[c]?).map (g c)) : l'.length = l.length := by
  have key : ∀ c, c < l'.length ↔ c < l.length := fun c => by
    have := h c
    constructor
    · intro hc
      by_contra hn
      rw [List.getElem?_eq_none (not_lt.1 hn), List.getElem?_eq_getElem hc] at this
      simp at this
    · intro hc
      by_contra hn
      rw [List.getElem?_eq_none (not_lt.1 hn), List.getElem?_eq_getElem hc] at this
      simp at this
  rcases lt_trichotomy l'.length l.length with g | g | g
  · exact absurd ((key _).2 g) (lt_irrefl _)
  · exact g
  · exact absurd ((key _).1 g) (lt_irrefl _)

section
variable (St : ℝ → Sj) (Mt : ℝ → MoonTimes) (timeStr : ℝ → String) (jd : ℤ) (sq : ℝ) (n : ℕ)

/-- effect of one moon assignment on row `c` -/
noncomputable def cellEff (t : ℝ) (put : String → Row → Row) (c : ℕ) (r : Row) : Row :=
  if c < n ∧ ⌊t - sq + 0.5⌋ - jd = c then put (timeStr (t - sq)) r else r

/-- effect of the sun's part on row `c` -/
noncomputable def sunEff (i : ℤ) (c : ℕ) (row : Row) : Row :=
  if c < n ∧ i = c then
    { row with
      s := timeStr ((St (jd + c + sq)).s - sq), z := timeStr ((St (jd + c + sq)).z - sq), j := timeStr ((St (jd + c + sq)).j - sq),
      c := timeStr ((St (jd + c + sq)).c - sq), h := timeStr ((St (jd + c + sq)).h - sq),
      ch := timeStr ((St (jd + c + sq)).h - (St (jd + c + sq)).c - 0.5), sj := timeStr ((St (jd + c + sq)).j - (St (jd + c + sq)).s - 0.5) }
  else row

theorem moonCell_spec (t : ℝ) (put : String → Row → Row) (l : List Row) (hl : n ≤ l.length) :
    ∃ l', moonCell timeStr jd sq n t put l = some l' ∧ ∀ c, l'[c]? = (l[c]?).map (cellEff timeStr jd sq n t put c) := by
  unfold moonCell
  simp only []
  by_cases h : 0 ≤ ⌊t - sq + 0.5⌋ - jd ∧ ⌊t - sq + 0.5⌋ - jd < n
  · rw [if_pos h]
    obtain ⟨l', h1, h2⟩ := setRow_spec l (⌊t - sq + 0.5⌋ - jd).toNat (put (timeStr (t - sq))) (by omega)
    refine ⟨l', h1, fun c => ?_⟩
    rw [h2]
    congr 1
    funext r
    unfold cellEff
    by_cases hc : c = (⌊t - sq + 0.5⌋ - jd).toNat
    · rw [if_pos hc, if_pos ⟨by omega, by omega⟩]
    · rw [if_neg hc, if_neg (by omega)]
  · rw [if_neg h]
    refine ⟨l, rfl, fun c => ?_⟩
    have : cellEff timeStr jd sq n t put c = fun r => r := by
      funext r; unfold cellEff; rw [if_neg (by omega)]
    rw [this]; simp

theorem sun_spec (i : ℤ) (l : List Row) (hl : n ≤ l.length) :
    ∃ l', (if 0 ≤ i ∧ i < n then sunRow St timeStr jd sq i.toNat l else some l) = some l'
      ∧ ∀ c, l'[c]? = (l[c]?).map (sunEff St timeStr jd sq n i c) := by
  by_cases h : 0 ≤ i ∧ i < n
  · rw [if_pos h]
    obtain ⟨l', h1, h2⟩ := setRow_spec l i.toNat (fun row => { row with
      s := timeStr ((St (jd + i.toNat + sq)).s - sq), z := timeStr ((St (jd + i.toNat + sq)).z - sq), j := timeStr ((St (jd + i.toNat + sq)).j - sq),
      c := timeStr ((St (jd + i.toNat + sq)).c - sq), h := timeStr ((St (jd + i.toNat + sq)).h - sq),
      ch := timeStr ((St (jd + i.toNat + sq)).h - (St (jd + i.toNat + sq)).c - 0.5),
      sj := timeStr ((St (jd + i.toNat + sq)).j - (St (jd + i.toNat + sq)).s - 0.5) }) (by omega)
    refine ⟨l', h1, fun c => ?_⟩
    rw [h2]
    congr 1
    funext r
    unfold sunEff
    by_cases hc : c = i.toNat
    · rw [if_pos hc, if_pos ⟨by omega, by omega⟩, hc]
    · rw [if_neg hc, if_neg (by omega)]
  · rw [if_neg h]
    refine ⟨l, rfl, fun c => ?_⟩
    have : sunEff St timeStr jd sq n i c = fun r => r := by
      funext r; unfold sunEff; rw [if_neg (by omega)]
    rw [this]; simp

/-- effect of a round on row `c` -/
noncomputable def roundEff (i : ℤ) (c : ℕ) (r : Row) : Row :=
  cellEff timeStr jd sq n (Mt (jd + i + sq)).j (fun t row => { row with Mj := t }) c
    (cellEff timeStr jd sq n (Mt (jd + i + sq)).z (fun t row => { row with Mz := t }) c
      (cellEff timeStr jd sq n (Mt (jd + i + sq)).s (fun t row => { row with Ms := t }) c (sunEff St timeStr jd sq n i c r)))

theorem round_spec (i : ℤ) (l : List Row) (hl : n ≤ l.length) :
    ∃ l', rtsRound St Mt timeStr jd sq n i l = some l' ∧ ∀ c, l'[c]? = (l[c]?).map (roundEff St Mt timeStr jd sq n i c) := by
  obtain ⟨l1, a1, b1⟩ := sun_spec St timeStr jd sq n i l hl
  have e1 := same_length b1
  obtain ⟨l2, a2, b2⟩ := moonCell_spec timeStr jd sq n (Mt (jd + i + sq)).s (fun t row => { row with Ms := t }) l1 (by omega)
  have e2 := same_length b2
  obtain ⟨l3, a3, b3⟩ := moonCell_spec timeStr jd sq n (Mt (jd + i + sq)).z (fun t row => { row with Mz := t }) l2 (by omega)
  have e3 := same_length b3
  obtain ⟨l4, a4, b4⟩ := moonCell_spec timeStr jd sq n (Mt (jd + i + sq)).j (fun t row => { row with Mj := t }) l3 (by omega)
  refine ⟨l4, ?_, fun c => ?_⟩
  · unfold rtsRound
    simp only [a1, a2, a3, a4, Option.bind_eq_bind, Option.bind_some]
  · rw [b4, b3, b2, b1, Option.map_map, Option.map_map, Option.map_map]
    rfl

theorem loop_spec : ∀ (k : ℕ) (i : ℤ) (l : List Row), n ≤ l.length →
    ∃ l', rtsLoop St Mt timeStr jd sq n k i l = some l' ∧
      ∀ c, l'[c]? = (l[c]?).map (fun r => ((List.range k).map (fun m : ℕ => (m : ℤ) + i)).foldl (fun r i => roundEff St Mt timeStr jd sq n i c r) r)
  | 0, i, l, _ => ⟨l, rfl, fun c => by simp⟩
  | k + 1, i, l, hl => by
    obtain ⟨l1, a1, b1⟩ := round_spec St Mt timeStr jd sq n i l hl
    have e1 := same_length b1
    obtain ⟨l2, a2, b2⟩ := loop_spec k (i + 1) l1 (by omega)
    refine ⟨l2, ?_, fun c => ?_⟩
    · unfold rtsLoop
      simp only [a1, a2, Option.bind_eq_bind, Option.bind_some]
    · rw [b2, b1, Option.map_map]
      congr 1
      funext r
      rw [List.range_succ_eq_map, List.map_cons, List.foldl_cons, List.map_map]
      simp only [Function.comp, Nat.cast_zero, zero_add]
      congr 1
      apply List.map_congr_left
      intro m _
      simp only [Function.comp, Nat.cast_succ]; ring

end

theorem fold_field {ρ τ ι : Type*} (fld : ρ → τ) (g : ι → ρ → ρ) (u : ι → τ → τ) (h : ∀ i r, fld (g i r) = u i (fld r)) :
    ∀ (L : List ι) (r : ρ), fld (L.foldl (fun r i => g i r) r) = L.foldl (fun t i => u i t) (fld r)
  | [], _ => rfl
  | i :: L, r => by rw [List.foldl_cons, List.foldl_cons, fold_field fld g u h L, h]

theorem fold_last {τ ι : Type*} (p : ι → Bool) (v : ι → τ) : ∀ (L : List ι) (a : τ),
    L.foldl (fun t i => if p i then v i else t) a = (((L.filter p).getLast?).map v).getD a
  | [], _ => rfl
  | i :: L, a => by
    rw [List.foldl_cons, fold_last p v L]
    by_cases h : p i = true
    · rw [if_pos h, List.filter_cons_of_pos h]
      rcases hL : L.filter p with _ | ⟨x, xs⟩
      · simp
      · simp [List.getLast?_cons]
    · rw [if_neg h, List.filter_cons_of_neg h]

theorem fold_mem {τ ι : Type*} [DecidableEq ι] (v : τ) (i0 : ι) : ∀ (L : List ι) (a : τ), i0 ∈ L → L.foldl (fun t i => if i = i0 then v else t) a = v
  | i :: L, a, h => by
    rw [List.foldl_cons]
    by_cases hL : i0 ∈ L
    · exact fold_mem v i0 L _ hL
    · rcases List.mem_cons.1 h with e | e
      · rw [if_pos e.symm]
        clear h
        induction L with
        | nil => rfl
        | cons j L ih =>
          rw [List.foldl_cons, if_neg (fun e => hL (by simp [e]))]
          exact ih (fun h => hL (by simp [h]))
      · exact absurd e hL

/-- **C49 (contents of the table).**  With at most as many days as the table has rows, `calcRTS` succeeds, keeps the number of rows and the rows from `n` on; row `c` has the texts of the sun's
times of the day `c`; and in each moon column the last event of the days −1 … n that falls on the day `c` — or, if there is none, *what was there before the call*. -/
theorem c49_table (St : ℝ → Sj) (Mt : ℝ → MoonTimes) (timeStr : ℝ → String) (l : List Row) (hl : l.length ≠ 0) (jd : ℤ) (n : ℕ) (hn : n ≤ l.length) (sq : ℝ) :
    ∃ l', calcRTS St Mt timeStr l jd n sq = some l' ∧ l'.length = l.length ∧ (∀ c, n ≤ c → l'[c]? = l[c]?) ∧
      ∀ c (hc : c < n), ∃ r r', l[c]? = some r ∧ l'[c]? = some r' ∧
        (let day := St (jd + c + sq / 24)
         r'.s = timeStr (day.s - sq / 24) ∧ r'.z = timeStr (day.z - sq / 24) ∧ r'.j = timeStr (day.j - sq / 24) ∧ r'.c = timeStr (day.c - sq / 24)
          ∧ r'.h = timeStr (day.h - sq / 24) ∧ r'.ch = timeStr (day.h - day.c - 0.5) ∧ r'.sj = timeStr (day.j - day.s - 0.5))
        ∧ r'.Ms = lastOn timeStr jd (sq / 24) (fun i => (Mt (jd + i + sq / 24)).s) (days n) c r.Ms
        ∧ r'.Mz = lastOn timeStr jd (sq / 24) (fun i => (Mt (jd + i + sq / 24)).z) (days n) c r.Mz
        ∧ r'.Mj = lastOn timeStr jd (sq / 24) (fun i => (Mt (jd + i + sq / 24)).j) (days n) c r.Mj := by
  obtain ⟨q, hq⟩ : ∃ q, q = sq / 24 := ⟨_, rfl⟩
  rw [← hq]
  obtain ⟨l', a, b⟩ := loop_spec St Mt timeStr jd q n (n + 2) (-1) l hn
  have hdays : (List.range (n + 2)).map (fun m : ℕ => (m : ℤ) + -1) = days n := rfl
  rw [hdays] at b
  refine ⟨l', ?_, same_length b, ?_, ?_⟩
  · unfold calcRTS
    simp only [if_neg hl, ← hq]
    rw [if_neg (by omega), a]
  · intro c hc
    rw [b]
    have : ∀ r : Row, (days n).foldl (fun r i => roundEff St Mt timeStr jd q n i c r) r = r := by
      intro r
      generalize days n = L
      induction L with
      | nil => rfl
      | cons i L ih =>
        rw [List.foldl_cons]
        have : roundEff St Mt timeStr jd q n i c r = r := by
          unfold roundEff cellEff sunEff
          simp [show ¬ c < n by omega]
        rw [this, ih]
    simp [this]
  · intro c hc
    have hcl : c < l.length := by omega
    refine ⟨l[c], (days n).foldl (fun r i => roundEff St Mt timeStr jd q n i c r) l[c], List.getElem?_eq_getElem hcl, ?_, ?_, ?_, ?_, ?_⟩
    · rw [b, List.getElem?_eq_getElem hcl]; rfl
    · have hmem : (c : ℤ) ∈ days n := by
        unfold days
        rw [List.mem_map]
        exact ⟨c + 1, by simp; omega, by push_cast; ring⟩
      have sun : ∀ (fld : Row → String) (v : String), (∀ i r, fld (roundEff St Mt timeStr jd q n i c r) = if i = c then v else fld r) →
          fld ((days n).foldl (fun r i => roundEff St Mt timeStr jd q n i c r) l[c]) = v := fun fld v h => by
        rw [fold_field fld (fun i r => roundEff St Mt timeStr jd q n i c r) (fun i t => if i = c then v else t) h, fold_mem v (c : ℤ) _ _ hmem]
      simp only []
      refine ⟨sun Row.s _ ?_, sun Row.z _ ?_, sun Row.j _ ?_, sun Row.c _ ?_, sun Row.h _ ?_, sun Row.ch _ ?_, sun Row.sj _ ?_⟩ <;>
      · intro i r
        unfold roundEff cellEff sunEff
        simp only [hc, true_and]
        split_ifs <;> rfl
    · rw [fold_field Row.Ms (fun i r => roundEff St Mt timeStr jd q n i c r)
        (fun i t => if (decide (⌊(Mt (jd + i + q)).s - q + 0.5⌋ - jd = c)) = true then timeStr ((Mt (jd + i + q)).s - q) else t)]
      · exact fold_last _ (fun i : ℤ => timeStr ((Mt (jd + i + q)).s - q)) _ _
      · intro i r
        unfold roundEff cellEff sunEff
        simp only [hc, true_and, decide_eq_true_eq]
        split_ifs <;> rfl
    · rw [fold_field Row.Mz (fun i r => roundEff St Mt timeStr jd q n i c r)
        (fun i t => if (decide (⌊(Mt (jd + i + q)).z - q + 0.5⌋ - jd = c)) = true then timeStr ((Mt (jd + i + q)).z - q) else t)]
      · exact fold_last _ (fun i : ℤ => timeStr ((Mt (jd + i + q)).z - q)) _ _
      · intro i r
        unfold roundEff cellEff sunEff
        simp only [hc, true_and, decide_eq_true_eq]
        split_ifs <;> rfl
    · rw [fold_field Row.Mj (fun i r => roundEff St Mt timeStr jd q n i c r)
        (fun i t => if (decide (⌊(Mt (jd + i + q)).j - q + 0.5⌋ - jd = c)) = true then timeStr ((Mt (jd + i + q)).j - q) else t)]
      · exact fold_last _ (fun i : ℤ => timeStr ((Mt (jd + i + q)).j - q)) _ _
      · intro i r
        unfold roundEff cellEff sunEff
        simp only [hc, true_and, decide_eq_true_eq]
        split_ifs <;> rfl

/-- the first call works on a table of 31 empty rows -/
theorem c49_first (St : ℝ → Sj) (Mt : ℝ → MoonTimes) (timeStr : ℝ → String) (jd : ℤ) (n : ℕ) (sq : ℝ) :
    calcRTS St Mt timeStr [] jd n sq = calcRTS St Mt timeStr (List.replicate 31 Row.empty) jd n sq := by
  simp [calcRTS]

/-- **C49 (bounds).**  The table always has 31 rows, whatever the history of successful calls, and a request for more than 31 days accesses memory outside it. -/
theorem c49_bounds (St : ℝ → Sj) (Mt : ℝ → MoonTimes) (timeStr : ℝ → String) (l : List Row) (hl : l.length = 0 ∨ l.length = 31) (jd : ℤ) (n : ℕ) (sq : ℝ) :
    (31 < n → calcRTS St Mt timeStr l jd n sq = none) ∧ (n ≤ 31 → ∃ l', calcRTS St Mt timeStr l jd n sq = some l' ∧ l'.length = 31) := by
  have key : ∀ l : List Row, l.length = 31 →
      (31 < n → calcRTS St Mt timeStr l jd n sq = none) ∧ (n ≤ 31 → ∃ l', calcRTS St Mt timeStr l jd n sq = some l' ∧ l'.length = 31) := by
    intro l h
    constructor
    · intro hn
      unfold calcRTS
      have h0 : ¬ l.length = 0 := by omega
      simp only [if_neg h0]
      rw [if_pos (by omega)]
    · intro hn
      obtain ⟨l', a, b, -⟩ := c49_table St Mt timeStr l (by omega) jd n (by omega) sq
      exact ⟨l', a, by omega⟩
  rcases hl with h | h
  · rw [List.length_eq_zero_iff.1 h, c49_first]
    exact key _ (by simp)
  · exact key l h

/-- **C49 (history).**  For two earlier states of the table, the rows of the days `0 … n-1` agree after the same call in all the sun's columns, and in each column of the moon on each
day on which an event falls; on a day without such an event each table keeps the text it had: the intended "--:--:--" is written to a copy of the row. -/
theorem c49_history (St : ℝ → Sj) (Mt : ℝ → MoonTimes) (timeStr : ℝ → String) (l m : List Row) (hl : l.length = 31) (hm : m.length = 31)
    (jd : ℤ) (n : ℕ) (hn : n ≤ 31) (sq : ℝ) :
    ∃ l' m', calcRTS St Mt timeStr l jd n sq = some l' ∧ calcRTS St Mt timeStr m jd n sq = some m' ∧
      ∀ c < n, ∃ a b a' b', l[c]? = some a ∧ m[c]? = some b ∧ l'[c]? = some a' ∧ m'[c]? = some b'
        ∧ a'.s = b'.s ∧ a'.z = b'.z ∧ a'.j = b'.j ∧ a'.c = b'.c ∧ a'.h = b'.h ∧ a'.ch = b'.ch ∧ a'.sj = b'.sj
        ∧ (let none? := fun f : ℤ → ℝ => ∀ i : ℤ, -1 ≤ i → i ≤ n → ⌊f i - sq / 24 + 0.5⌋ - jd ≠ c
           (¬ none? (fun i => (Mt (jd + i + sq / 24)).s) → a'.Ms = b'.Ms) ∧ (none? (fun i => (Mt (jd + i + sq / 24)).s) → a'.Ms = a.Ms ∧ b'.Ms = b.Ms)
           ∧ (¬ none? (fun i => (Mt (jd + i + sq / 24)).z) → a'.Mz = b'.Mz) ∧ (none? (fun i => (Mt (jd + i + sq / 24)).z) → a'.Mz = a.Mz ∧ b'.Mz = b.Mz)
           ∧ (¬ none? (fun i => (Mt (jd + i + sq / 24)).j) → a'.Mj = b'.Mj) ∧ (none? (fun i => (Mt (jd + i + sq / 24)).j) → a'.Mj = a.Mj ∧ b'.Mj = b.Mj)) := by
  obtain ⟨l', a1, -, -, a2⟩ := c49_table St Mt timeStr l (by omega) jd n (by omega) sq
  obtain ⟨m', b1, -, -, b2⟩ := c49_table St Mt timeStr m (by omega) jd n (by omega) sq
  refine ⟨l', m', a1, b1, fun c hc => ?_⟩
  obtain ⟨a, a', g1, g2, ⟨x1, x2, x3, x4, x5, x6, x7⟩, x8, x9, x10⟩ := a2 c hc
  obtain ⟨b, b', h1, h2, ⟨y1, y2, y3, y4, y5, y6, y7⟩, y8, y9, y10⟩ := b2 c hc
  refine ⟨a, b, a', b', g1, h1, g2, h2, by rw [x1, y1], by rw [x2, y2], by rw [x3, y3], by rw [x4, y4], by rw [x5, y5], by rw [x6, y6], by rw [x7, y7], ?_⟩
  have mem : ∀ i, i ∈ days n ↔ -1 ≤ i ∧ i ≤ n := fun i => by
    unfold days
    rw [List.mem_map]
    constructor
    · rintro ⟨k, hk, rfl⟩; rw [List.mem_range] at hk; omega
    · intro h; exact ⟨(i + 1).toNat, by rw [List.mem_range]; omega, by omega⟩
  have key : ∀ (f : ℤ → ℝ) (u v : String),
      (¬ (∀ i : ℤ, -1 ≤ i → i ≤ n → ⌊f i - sq / 24 + 0.5⌋ - jd ≠ c) → lastOn timeStr jd (sq / 24) f (days n) c u = lastOn timeStr jd (sq / 24) f (days n) c v)
      ∧ ((∀ i : ℤ, -1 ≤ i → i ≤ n → ⌊f i - sq / 24 + 0.5⌋ - jd ≠ c) → lastOn timeStr jd (sq / 24) f (days n) c u = u) := by
    intro f u v
    constructor
    · intro h
      push Not at h
      obtain ⟨i, i1, i2, i3⟩ := h
      unfold lastOn
      rcases hL : ((days n).filter (fun i => ⌊f i - sq / 24 + 0.5⌋ - jd = c)).getLast? with _ | w
      · rw [List.getLast?_eq_none_iff, List.filter_eq_nil_iff] at hL
        exact absurd (by simpa using i3) (hL i ((mem i).2 ⟨i1, i2⟩))
      · rfl
    · intro h
      unfold lastOn
      rw [List.filter_eq_nil_iff.2 (fun i hi => by simpa using h i ((mem i).1 hi).1 ((mem i).1 hi).2)]
      rfl
  simp only []
  rw [x8, x9, x10, y8, y9, y10]
  exact ⟨(key _ _ _).1, fun h => ⟨(key _ _ "").2 h, (key _ _ "").2 h⟩, (key _ _ _).1, fun h => ⟨(key _ _ "").2 h, (key _ _ "").2 h⟩,
    (key _ _ _).1, fun h => ⟨(key _ _ "").2 h, (key _ _ "").2 h⟩⟩

/-- stale text: with a moon that never rises during the days asked for, the first row keeps the rising time of an earlier request -/
example : ∃ (St : ℝ → Sj) (Mt : ℝ → MoonTimes) (timeStr : ℝ → String) (l l' : List Row), l.length = 31 ∧ calcRTS St Mt timeStr l 0 1 0 = some l'
    ∧ ∃ r, l'[0]? = some r ∧ r.Ms = "05:00:00" := by
  obtain ⟨l, hl⟩ : ∃ l : List Row, l = List.replicate 31 { Row.empty with Ms := "05:00:00" } := ⟨_, rfl⟩
  have hlen : l.length = 31 := by rw [hl]; simp
  obtain ⟨l', a, -, -, b⟩ := c49_table (fun _ => ⟨0, 0, 0, 0, 0, 0, 0, 0, 0, 0, ""⟩) (fun _ => ⟨100, 100, 100⟩) (fun _ => "") l (by omega) 0 1 (by omega) 0
  obtain ⟨r, r', h1, h2, -, h3, -⟩ := b 0 (by omega)
  refine ⟨_, _, _, l, l', hlen, a, r', h2, ?_⟩
  have hr : r.Ms = "05:00:00" := by
    have : l[0]? = some { Row.empty with Ms := "05:00:00" } := by rw [hl]; rfl
    rw [this] at h1
    injection h1 with h1
    rw [← h1]
  rw [h3, ← hr]
  unfold lastOn
  rw [List.filter_eq_nil_iff.2]
  · rfl
  · intro i _
    have : ⌊(100 : ℝ) - 0 / 24 + 0.5⌋ = 100 := by rw [Int.floor_eq_iff]; norm_num
    simp only [this]; norm_num

/-! ## C55: hour angles, noon, rising and setting -/

/-- **C55 (hour angle).**  For a site and a declination short of the poles, `getH` is the hour angle at which a body of declination `w` has the altitude `h`, in [0, π]; it is `π` when the body never
has that altitude. -/
theorem c55_getH (fa h w : ℝ) (hf : 0 < cos fa) (hw : 0 < cos w) :
    (0 ≤ getH fa h w ∧ getH fa h w ≤ π) ∧
    ((∃ H, sin fa * sin w + cos fa * cos w * cos H = sin h) → sin fa * sin w + cos fa * cos w * cos (getH fa h w) = sin h
      ∧ ∀ H, sin fa * sin w + cos fa * cos w * cos H = sin h → cos H = cos (getH fa h w)) ∧
    ((¬ ∃ H, sin fa * sin w + cos fa * cos w * cos H = sin h) → getH fa h w = π) := by
  obtain ⟨c, hc⟩ : ∃ c, c = (sin h - sin fa * sin w) / cos fa / cos w := ⟨_, rfl⟩
  have hq : cos fa * cos w * c = sin h - sin fa * sin w := by rw [hc]; field_simp
  have hp : 0 < cos fa * cos w := mul_pos hf hw
  have hval : getH fa h w = if |c| > 1 then π else arccos c := by rw [hc]; rfl
  have hex : ∀ H, sin fa * sin w + cos fa * cos w * cos H = sin h ↔ cos H = c := fun H => by
    constructor
    · intro g
      have : cos fa * cos w * cos H = cos fa * cos w * c := by rw [hq]; linarith
      exact mul_left_cancel₀ hp.ne' this
    · intro g; rw [g, hq]; ring
  refine ⟨?_, ?_, ?_⟩
  · rw [hval]
    split_ifs
    · exact ⟨pi_pos.le, le_refl _⟩
    · exact ⟨arccos_nonneg _, arccos_le_pi _⟩
  · rintro ⟨H, hH⟩
    rw [hex] at hH
    have h1 : -1 ≤ c := by rw [← hH]; exact neg_one_le_cos H
    have h2 : c ≤ 1 := by rw [← hH]; exact cos_le_one H
    have hg : cos (getH fa h w) = c := by
      rw [hval, if_neg (by rw [gt_iff_lt, not_lt, abs_le]; exact ⟨h1, h2⟩), cos_arccos h1 h2]
    refine ⟨(hex _).2 hg, fun H' g => ?_⟩
    rw [hg]; exact (hex H').1 g
  · intro hn
    rw [hval, if_pos]
    by_contra hcc
    rw [gt_iff_lt, not_lt, abs_le] at hcc
    exact hn ⟨arccos c, (hex _).2 (cos_arccos hcc.1 hcc.2)⟩

/-- **C55 (nearest multiple).**  `mod2 a b` is the signed distance of `a` from the nearest multiple of `b`: a multiple remains, and the distance is at most half of `b`. -/
theorem c55_mod2 (a b : ℝ) (hb : 0 < b) : (∃ k : ℤ, a - mod2 a b = k * b) ∧ -(b / 2) < mod2 a b ∧ mod2 a b ≤ b / 2 := by
  obtain ⟨c, hc⟩ : ∃ c, c = a / b := ⟨_, rfl⟩
  have ha : a = c * b := by rw [hc, div_mul_cancel₀ _ hb.ne']
  have hm : mod2 a b = (if c - ⌊c⌋ > 0.5 then c - ⌊c⌋ - 1 else c - ⌊c⌋) * b := by rw [hc]; rfl
  have f1 := Int.floor_le c
  have f2 := Int.lt_floor_add_one c
  rw [hm]
  split_ifs with h
  · refine ⟨⟨⌊c⌋ + 1, by rw [ha]; push_cast; ring⟩, ?_, ?_⟩
    · have : (-0.5 : ℝ) < c - ⌊c⌋ - 1 := by norm_num at h ⊢; linarith
      nlinarith
    · nlinarith
  · refine ⟨⟨⌊c⌋, by rw [ha]; ring⟩, ?_, ?_⟩
    · nlinarith
    · have : c - ⌊c⌋ ≤ (0.5 : ℝ) := not_lt.1 h
      nlinarith

/-- the altitude of a body of hour angle `H` and declination `w` at latitude `fa` has this sine -/
noncomputable def sinAlt (fa w H : ℝ) : ℝ := sin fa * sin w + cos fa * cos w * cos H

theorem rrad_zero_of {x : ℝ} {k : ℤ} (h : x = 2 * π * k) : rrad x = 0 := by
  obtain ⟨h1, h2, m, hm⟩ := c36_rrad_real x
  have hp := pi_pos
  rw [hm, h] at h1 h2
  have l1 : (k : ℝ) + m < 1 := by
    by_contra hc
    have : 2 * π * 1 ≤ 2 * π * ((k : ℝ) + m) := mul_le_mul_of_nonneg_left (not_lt.1 hc) (by linarith)
    linarith
  have l2 : (-1 : ℝ) < k + m := by
    by_contra hc
    have : 2 * π * ((k : ℝ) + m) ≤ 2 * π * (-1) := mul_le_mul_of_nonneg_left (not_lt.1 hc) (by linarith)
    linarith
  have l1' : k + m < 1 := by exact_mod_cast l1
  have l2' : -1 < k + m := by exact_mod_cast l2
  have : k + m = 0 := by omega
  have : (k : ℝ) + m = 0 := by exact_mod_cast this
  rw [hm, h, show 2 * π * (k : ℝ) + 2 * π * m = 2 * π * (k + m) by ring, this, mul_zero]

/-- one refined time with a uniformly turning body of constant declination -/
theorem refine_uniform (b : Body) (θ hh : ℝ) (hb : ∀ t, b.H t = θ + 2 * π * t) (jd : ℝ) (Hx : ℝ → ℝ) (hHx : ∀ t, Hx t = hh) (sgn : ℝ) :
    refine b (2 * π) jd Hx sgn = jd + (sgn * hh - rrad (b.H jd)) / (2 * π) := by
  have hp := pi_pos
  obtain ⟨-, -, k, hk⟩ := c36_rrad_real (b.H jd)
  obtain ⟨r, hr⟩ : ∃ r, r = jd + (sgn * hh - rrad (b.H jd)) / (2 * π) := ⟨_, rfl⟩
  have hHr : b.H r = sgn * hh - 2 * π * k := by
    rw [hb, hr, hk, hb]; field_simp; ring
  obtain ⟨-, -, m, hm⟩ := c36_rrad_real (b.H r)
  have hz : rrad (sgn * hh - rrad (b.H r)) = 0 := by
    apply rrad_zero_of (k := k - m)
    rw [hm, hHr]; push_cast; ring
  unfold refine
  simp only [hHx, ← hr, hz, zero_div, add_zero]

theorem alt_50 : alt (-50 * 60) = -(50 / 60) * (π / 180) := by unfold alt; field_simp; norm_num
theorem alt_6 : alt (-6 * 3600) = -6 * (π / 180) := by unfold alt; field_simp
theorem alt_12 : alt (-12 * 3600) = -12 * (π / 180) := by unfold alt; field_simp
theorem alt_18 : alt (-18 * 3600) = -18 * (π / 180) := by unfold alt; field_simp

/-- **C55 (times under uniform motion).**  For a sun that turns once a day and keeps its declination, `St` is exact: the upper culmination is within half a day of the local mean noon nearest to the
given instant, at hour angle 0; the lower one half a day later; and if the sun reaches the altitude 50′ below the horizon at all, it is there exactly at the reported times of rising
and setting, rising not after and setting not before the culmination, less than half a day away — and the same for the three kinds of twilight with 6°, 12° and 18°. -/
theorem c55_uniform (b : Body) (L fa θ δ jd : ℝ) (hH : ∀ t, b.H t = θ + 2 * π * t) (hd : ∀ t, b.dec t = δ) (hf : 0 < cos fa) (hδ : 0 < cos δ) :
    ∃ noon : ℝ, (∃ k : ℤ, noon + L / (2 * π) = k) ∧ |noon - jd| ≤ 1 / 2 ∧
      (let r := St b L fa jd
       |r.z - noon| ≤ 1 / 2 ∧ (∃ k : ℤ, b.H r.z = 2 * π * k) ∧ r.x = r.z + 1 / 2 ∧
       ∀ q ∈ [(r.s, r.j, -(50 / 60)), (r.c, r.h, -6), (r.c2, r.h2, -12), (r.c3, r.h3, -18)],
         r.z - 1 / 2 ≤ q.1 ∧ q.1 ≤ r.z ∧ r.z ≤ q.2.1 ∧ q.2.1 ≤ r.z + 1 / 2 ∧ q.2.1 - r.z = r.z - q.1 ∧
         ((∃ H, sinAlt fa δ H = sin (q.2.2 * (π / 180))) → sinAlt fa δ (b.H q.1) = sin (q.2.2 * (π / 180)) ∧ sinAlt fa δ (b.H q.2.1) = sin (q.2.2 * (π / 180))) ∧
         ((¬ ∃ H, sinAlt fa δ H = sin (q.2.2 * (π / 180))) → q.1 = r.z - 1 / 2 ∧ q.2.1 = r.z + 1 / 2)) := by
  have hp := pi_pos
  obtain ⟨⟨k0, hk0⟩, m1, m2⟩ := c55_mod2 (jd + L / (2 * π)) 1 one_pos
  obtain ⟨noon, hnoon⟩ : ∃ noon, noon = jd - mod2 (jd + L / (2 * π)) 1 := ⟨_, rfl⟩
  refine ⟨noon, ⟨k0, by rw [hnoon]; linarith⟩, by rw [hnoon, abs_le]; constructor <;> linarith, ?_⟩
  obtain ⟨g1, g2, k, hk⟩ := c36_rrad_real (b.H noon)
  obtain ⟨A, hA⟩ : ∃ A, A = rrad (b.H noon) := ⟨_, rfl⟩
  rw [← hA] at g1 g2 hk
  obtain ⟨z, hz⟩ : ∃ z, z = noon + (0 - A) / (2 * π) := ⟨_, rfl⟩
  have hHz : b.H z = 2 * π * ((-k : ℤ) : ℝ) := by
    rw [hH, hz, hk, hH]; push_cast; field_simp; ring
  have hx0 : noon + (π - A) / (2 * π) = z + 1 / 2 := by rw [hz]; field_simp; ring
  have hHx : b.H (z + 1 / 2) = π + 2 * π * ((-k : ℤ) : ℝ) := by
    rw [hH, mul_add, ← add_assoc, ← hH, hHz]; ring
  have hz0 : rrad (b.H z) = 0 := rrad_zero_of hHz
  have hx1 : rrad (π - rrad (b.H (z + 1 / 2))) = 0 := by
    obtain ⟨-, -, m, hm⟩ := c36_rrad_real (b.H (z + 1 / 2))
    apply rrad_zero_of (k := k - m)
    rw [hm, hHx]; push_cast; ring
  have rz : (St b L fa jd).z = z := by
    unfold St
    simp only [← hnoon, ← hA, ← hz, hz0]
    simp
  have rx : (St b L fa jd).x = z + 1 / 2 := by
    unfold St
    simp only [← hnoon, ← hA, hx0, hx1]
    simp
  have key : ∀ a sgn : ℝ, refine b (2 * π) noon (fun t => getH fa a (b.dec t)) sgn = z + sgn * getH fa a δ / (2 * π) := by
    intro a sgn
    rw [refine_uniform b θ (getH fa a δ) hH noon _ (fun t => by rw [hd]) sgn, ← hA, hz]
    field_simp
    ring
  have one : ∀ a : ℝ, let s := z + (-1) * getH fa a δ / (2 * π); let j := z + 1 * getH fa a δ / (2 * π)
      z - 1 / 2 ≤ s ∧ s ≤ z ∧ z ≤ j ∧ j ≤ z + 1 / 2 ∧ j - z = z - s ∧
         ((∃ H, sinAlt fa δ H = sin a) → sinAlt fa δ (b.H s) = sin a ∧ sinAlt fa δ (b.H j) = sin a) ∧
         ((¬ ∃ H, sinAlt fa δ H = sin a) → s = z - 1 / 2 ∧ j = z + 1 / 2) := by
    intro a
    obtain ⟨⟨q1, q2⟩, q3, q4⟩ := c55_getH fa a δ hf hδ
    obtain ⟨g, hg⟩ : ∃ g, g = getH fa a δ / (2 * π) := ⟨_, rfl⟩
    have hg' : getH fa a δ = 2 * π * g := by rw [hg]; field_simp
    have g0 : 0 ≤ g := by rw [hg]; positivity
    have g1 : g ≤ 1 / 2 := by rw [hg, div_le_iff₀ (by positivity)]; linarith
    simp only [neg_mul, one_mul, neg_div, ← hg]
    have c1 : cos (b.H (z + -g)) = cos (getH fa a δ) := by
      have : b.H (z + -g) = -getH fa a δ + ((-k : ℤ) : ℝ) * (2 * π) := by
        rw [hH, mul_add, ← add_assoc, ← hH, hHz, hg']; ring
      rw [this, cos_add_int_mul_two_pi, cos_neg]
    have c2 : cos (b.H (z + g)) = cos (getH fa a δ) := by
      have : b.H (z + g) = getH fa a δ + ((-k : ℤ) : ℝ) * (2 * π) := by
        rw [hH, mul_add, ← add_assoc, ← hH, hHz, hg']; ring
      rw [this, cos_add_int_mul_two_pi]
    refine ⟨by linarith, by linarith, by linarith, by linarith, by ring, fun h => ?_, fun h => ?_⟩
    · unfold sinAlt
      rw [c1, c2]
      exact ⟨(q3 h).1, (q3 h).1⟩
    · have : g = 1 / 2 := by rw [hg, q4 h]; field_simp
      rw [this]
      exact ⟨by ring, rfl⟩
  refine ⟨?_, ⟨-k, by rw [rz, hHz]⟩, by rw [rx, rz], ?_⟩
  · rw [rz, hz, abs_le]
    have : (0 - A) / (2 * π) = -(A / (2 * π)) := by ring
    rw [this]
    have u1 : A / (2 * π) ≤ 1 / 2 := by rw [div_le_iff₀ (by positivity)]; linarith
    have u2 : -(1 / 2) ≤ A / (2 * π) := by rw [le_div_iff₀ (by positivity)]; linarith
    constructor <;> linarith
  · have e : ∀ a sgn : ℝ, refine b (2 * π) (jd - mod2 (jd + L / (2 * π)) 1) (fun t => getH fa a (b.dec t)) sgn = z + sgn * getH fa a δ / (2 * π) := by
      intro a sgn; rw [← hnoon]; exact key a sgn
    rw [rz]
    intro q hq
    simp only [List.mem_cons, List.not_mem_nil, or_false] at hq
    rcases hq with rfl | rfl | rfl | rfl
    · have e1 : (St b L fa jd).s = _ := e (alt (-50 * 60)) (-1)
      have e2 : (St b L fa jd).j = _ := e (alt (-50 * 60)) 1
      simp only [e1, e2]
      rw [← alt_50]
      exact one _
    · have e1 : (St b L fa jd).c = _ := e (alt (-6 * 3600)) (-1)
      have e2 : (St b L fa jd).h = _ := e (alt (-6 * 3600)) 1
      simp only [e1, e2]
      rw [← alt_6]
      exact one _
    · have e1 : (St b L fa jd).c2 = _ := e (alt (-12 * 3600)) (-1)
      have e2 : (St b L fa jd).h2 = _ := e (alt (-12 * 3600)) 1
      simp only [e1, e2]
      rw [← alt_12]
      exact one _
    · have e1 : (St b L fa jd).c3 = _ := e (alt (-18 * 3600)) (-1)
      have e2 : (St b L fa jd).h3 = _ := e (alt (-18 * 3600)) 1
      simp only [e1, e2]
      rw [← alt_18]
      exact one _

/-- the altitude `a` is reached at some hour angle other than that of the lower culmination -/
def Crosses (fa δ a : ℝ) : Prop := ∃ H, -π < H ∧ H < π ∧ sinAlt fa δ H = sin a

theorem getH_pi (fa a δ : ℝ) (hf : 0 < cos fa) (hδ : 0 < cos δ) : getH fa a δ = π ↔ ¬ Crosses fa δ a := by
  obtain ⟨⟨q1, q2⟩, q3, q4⟩ := c55_getH fa a δ hf hδ
  constructor
  · rintro h ⟨H, h1, h2, h3⟩
    have := (q3 ⟨H, h3⟩).2 H h3
    rw [h, cos_pi] at this
    have hs : cos (|H| / 2) = 0 := by
      have e : cos H = 2 * cos (|H| / 2) ^ 2 - 1 := by rw [← cos_abs, ← cos_two_mul]; congr 1; ring
      rw [this] at e
      have : cos (|H| / 2) ^ 2 = 0 := by linarith
      exact pow_eq_zero_iff (two_ne_zero) |>.mp this
    have : 0 < cos (|H| / 2) := by
      have : |H| < π := abs_lt.mpr ⟨h1, h2⟩
      exact cos_pos_of_mem_Ioo ⟨by linarith [abs_nonneg H, pi_pos], by linarith⟩
    linarith
  · intro h
    by_cases hex : ∃ H, sinAlt fa δ H = sin a
    · by_contra hne
      exact h ⟨getH fa a δ, by linarith [pi_pos], lt_of_le_of_ne q2 hne, (q3 hex).1⟩
    · exact q4 hex

open Classical in
/-- **C55 (remarks under uniform motion).**  For such a sun the remark says exactly which altitudes are not crossed. -/
theorem c55_remarks (b : Body) (L fa δ jd : ℝ) (hd : ∀ t, b.dec t = δ) (hf : 0 < cos fa) (hδ : 0 < cos δ) :
    (St b L fa jd).sm =
      (if Crosses fa δ (-(50 / 60) * (π / 180)) then "" else "无升起.无降落.") ++ (if Crosses fa δ (-6 * (π / 180)) then "" else "无民用晨.无民用昏.") ++
      (if Crosses fa δ (-12 * (π / 180)) then "" else "无航海晨.无航海昏.") ++ (if Crosses fa δ (-18 * (π / 180)) then "" else "无天文晨.无天文昏.") := by
  have e : ∀ (j a sgn : ℝ) (text : String), remark b (2 * π) j (fun t => getH fa a (b.dec t)) sgn text = if Crosses fa δ a then "" else text := by
    intro j a sgn text
    unfold remark
    simp only [hd]
    by_cases h : Crosses fa δ a
    · rw [if_pos h, if_neg (fun g => (getH_pi fa a δ hf hδ).mp g h)]
    · rw [if_neg h, if_pos ((getH_pi fa a δ hf hδ).mpr h)]
  unfold St
  simp only [e, alt_50, alt_6, alt_12, alt_18]
  by_cases h1 : Crosses fa δ (-(50 / 60) * (π / 180)) <;> by_cases h2 : Crosses fa δ (-6 * (π / 180)) <;>
    by_cases h3 : Crosses fa δ (-12 * (π / 180)) <;> by_cases h4 : Crosses fa δ (-18 * (π / 180)) <;>
    simp only [h1, h2, h3, h4, if_true, if_false] <;> rfl

/-- a concrete case: on the equator, with the sun on the equator, the two bodies' hypotheses hold and the horizon is reached -/
example : (0 < cos (0 : ℝ)) ∧ (∃ H, sinAlt 0 0 H = sin (alt (-50 * 60))) ∧ (∀ t, (⟨fun t => 1 + 2 * π * t, fun _ => 0⟩ : Body).H t = 1 + 2 * π * t) := by
  refine ⟨by rw [cos_zero]; exact one_pos, ⟨arccos (sin (alt (-50 * 60))), ?_⟩, fun _ => rfl⟩
  unfold sinAlt
  rw [cos_arccos (neg_one_le_sin _) (sin_le_one _)]
  simp

end Verif.Geom
