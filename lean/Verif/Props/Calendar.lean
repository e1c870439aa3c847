import Verif.ClockLemmas

/-!
# Properties C01-C07: Julian day conversions and their text

The specification is `Verif/CalendarSpec.lean` (civil calendar) and
`Verif/ClockSpec.lean` (printed fields); the model is `Verif/Calendar.lean`, `Verif/DateText.lean`.
-/

namespace Verif.Cal
open Verif.Fp

/-- noon of a civil day as the API's `Date` -/
def noon (c : CDate) : Date := ⟨c.y, c.m, c.d, 12, 0, 0⟩

/-- the clock time `h:m:s` on a civil day as the API's `Date` -/
def at_ (c : CDate) (h m : ℤ) (s : ℚ) : Date := ⟨c.y, c.m, c.d, h, m, s⟩

/-! ## C01 -/

/-- C01 (step): consecutive civil days have consecutive integer Julian days. -/
theorem c01_toJD_next (c : CDate) (hv : c.Valid) (hr : c.InRange) (hn : c.next.InRange) :
    ∃ n : ℤ, toJD (noon c) = some (n : ℚ) ∧ toJD (noon c.next) = some ((n + 1 : ℤ) : ℚ) := by
  refine ⟨dayNum c.y c.m c.d, toJD_noon c hv hr, ?_⟩
  rw [← dayNum_next c hv]
  exact toJD_noon c.next (next_valid c hv) hn

/-- C01 (anchor): 2000-01-01 12h is JD 2451545; the reform skips no day number. -/
theorem c01_toJD_anchor :
    toJD (noon ⟨2000, 1, 1⟩) = some 2451545 ∧
    toJD (noon ⟨1582, 10, 4⟩) = some 2299160 ∧ toJD (noon ⟨1582, 10, 15⟩) = some 2299161 := by
  decide +kernel

/-- non-vacuity: leap day, century non-leap, reform, year end -/
example : (⟨2000, 2, 29⟩ : CDate).Valid ∧ (⟨2000, 2, 29⟩ : CDate).InRange ∧
    (⟨2000, 2, 29⟩ : CDate).next = ⟨2000, 3, 1⟩ ∧ (⟨1900, 2, 28⟩ : CDate).next = ⟨1900, 3, 1⟩ ∧
    (⟨1500, 2, 29⟩ : CDate).Valid ∧ ¬ (⟨1900, 2, 29⟩ : CDate).Valid ∧
    (⟨1582, 10, 4⟩ : CDate).next = ⟨1582, 10, 15⟩ ∧ (⟨-1, 12, 31⟩ : CDate).next = ⟨0, 1, 1⟩ := by
  unfold CDate.InRange; decide

/-- The lower end of the range is sharp: one day earlier the truncating conversion in `toJD`
miscounts: -4716-02-29 and -4716-03-01 get the same day number -/
theorem c01_before_range_wrong :
    toJD (noon ⟨-4716, 2, 29⟩) = some (-1401) ∧ toJD (noon ⟨-4716, 3, 1⟩) = some (-1401) := by
  decide +kernel

/-- and at the other end `int` arithmetic overflows (undefined behaviour). -/
theorem c01_overflow : toJD (noon ⟨5800000, 1, 1⟩) = none := by decide +kernel

/-! ## C02 -/

/-- C02: the date part survives the round trip, at every time of day whose seconds are whole. -/
theorem c02_date_roundtrip (c : CDate) (hv : c.Valid) (hy : -4700 ≤ c.y ∧ c.y ≤ 4900000)
    (h m s : ℤ) (hh : 0 ≤ h ∧ h < 24) (hm : 0 ≤ m ∧ m < 60) (hs : 0 ≤ s ∧ s < 60) :
    ∃ j r, toJD (at_ c h m s) = some j ∧ setFromJD j = some r ∧ (r.Y, r.M, r.D) = (c.y, c.m, c.d) := by
  obtain ⟨j, r, h1, h2, h3, -⟩ := roundtrip c hv hy h m s hh hm hs
  exact ⟨j, r, h1, h2, h3⟩

/-- C02 at noon, on the whole range. -/
theorem c02_noon_roundtrip (c : CDate) (hv : c.Valid) (hr : c.InRange) :
    ∃ j, toJD (noon c) = some j ∧ setFromJD j = some (noon c) := by
  refine ⟨_, toJD_noon c hv hr, ?_⟩
  obtain ⟨b1, b2⟩ := dayNum_bounds c.y c.m c.d hv hr
  exact setFromJD_noon c hv b1 (by omega)

example : (⟨2024, 2, 29⟩ : CDate).Valid ∧ setFromJD (2460370 + 1/4) = some ⟨2024, 2, 29, 18, 0, 0⟩ := by
  decide +kernel

/-! ## C03 -/

/-- C03: `JD2str (toJD d)` prints exactly `d`, for every civil day with a five-column year and
every whole second of that day. -/
theorem c03_text_roundtrip (c : CDate) (hv : c.Valid) (hy : -4700 ≤ c.y ∧ c.y ≤ 99999)
    (h m s : ℤ) (hh : 0 ≤ h ∧ h < 24) (hm : 0 ≤ m ∧ m < 60) (hs : 0 ≤ s ∧ s < 60) :
    ∃ j, toJD (at_ c h m s) = some j ∧
      jd2str j = some (dateText c.y c.m c.d ++ ' ' :: clockText (h * 3600 + m * 60 + s)) := by
  obtain ⟨j, r, h1, h2, h3, h', m', x, hr, p1, p2, p3, hsec⟩ := roundtrip c hv ⟨hy.1, by omega⟩ h m s hh hm hs
  refine ⟨j, h1, ?_⟩
  unfold jd2str
  rw [h2]
  obtain ⟨⟨hM1, hM2⟩, ⟨hD1, hD2⟩, -⟩ := valid_bounds hv
  subst hr
  simp only [Option.bind_eq_bind, Option.bind_some]
  rw [dd2str_eq _ _ _ _ _ _ (by omega) (by omega) p1 p2 p3 (decimal_length5 _ (by omega) (by omega)), hsec]

example : (toJD ⟨-104, 12, 3, 23, 59, 59⟩).bind jd2str = some " -104-12-03 23:59:59".toList := by decide +kernel

/-! ## C04 -/

/-- C04: for every double in range `setFromJD` returns an existing civil day and clock time;
together they denote exactly the double `jd + 0.5` minus half a day (so `jd` itself up to one rounding). -/
theorem c04_setFromJD_valid (jd : ℚ) (h1 : 4096 ≤ jd) (h2 : jd ≤ 1790000000) :
    ∃ r : Date, setFromJD jd = some r ∧ (⟨r.Y, r.M, r.D⟩ : CDate).Valid ∧
      0 ≤ r.h ∧ r.h < 24 ∧ 0 ≤ r.m ∧ r.m < 60 ∧ 0 ≤ r.s ∧ r.s < 60 ∧
      ∃ n : ℤ, toJD (noon ⟨r.Y, r.M, r.D⟩) = some (n : ℚ) ∧
        n + (r.h * 3600 + r.m * 60 + r.s) / 86400 = rnd (jd + 1/2) ∧
        |n - 1/2 + (r.h * 3600 + r.m * 60 + r.s) / 86400 - jd| ≤ (jd + 1/2) / 2^53 := by
  obtain ⟨N, h, m, x, e, b1, b2, b3, b4, b5, b6, b7, b8, b9⟩ := setFromJD_eq jd h1 (by linarith)
  have hNub : N ≤ 1790000001 := by
    have : rnd (jd + 1/2) ≤ (1790000001 : ℤ) := rnd_le_int (by norm_num) (by push_cast; linarith)
    have hx0 : (0:ℚ) ≤ x := by exact_mod_cast b7
    have hh0 : (0:ℚ) ≤ ((h * 3600 + m * 60 : ℤ):ℚ) := by exact_mod_cast (by omega)
    unfold fadd at b9
    rw [b9] at this
    have h3 : (0:ℚ) ≤ (((h * 3600 + m * 60 : ℤ):ℚ) + x / 1099511627776) / 86400 := by positivity
    push_cast at this
    have : (N:ℚ) ≤ 1790000001 := by push_cast at *; linarith
    exact_mod_cast this
  obtain ⟨c, hv, hr, hc⟩ := ofDay_spec N (by omega)
  have hof : ofDay N = (c.y, c.m, c.d) := by rw [← hc]; exact ofDay_dayNum c hv
  rw [hof] at e
  have hcy : c.y ≤ 4900000 := by
    by_contra hcon
    have := dayNum_lower c.y c.m c.d hv (by omega)
    omega
  refine ⟨_, e, hv, b3, b4, b5, b6, ?_, ?_, N, ?_, ?_, ?_⟩
  · have : (0:ℚ) ≤ x := by exact_mod_cast b7
    simp only; positivity
  · have : (x:ℚ) < 60 * 1099511627776 := by exact_mod_cast b8
    simp only
    rw [div_lt_iff₀ (by norm_num)]; linarith
  · rw [← hc]
    exact toJD_noon c hv ⟨by omega, hcy⟩
  · have := b9
    unfold fadd at this
    rw [this]; push_cast; ring
  · have herr := rnd_err1 (q := jd + 1/2) (B := jd + 1/2) (by rw [abs_of_nonneg (by linarith)]) (by linarith)
    have hb := b9
    unfold fadd at hb
    rw [hb] at herr
    push_cast at herr ⊢
    norm_num at herr ⊢
    rw [abs_le] at *
    constructor <;> linarith

example : (setFromJD (2299160 + 3/4)).isSome ∧ setFromJD (2299160 + 3/4) = some ⟨1582, 10, 15, 6, 0, 0⟩ := by
  decide +kernel

/-! ## C05 -/

/-- C05: `toJD` is strictly increasing in calendar time (date-times at least a second apart). -/
theorem c05_toJD_strictMono (c1 c2 : CDate) (v1 : c1.Valid) (v2 : c2.Valid) (r1 : c1.InRange) (r2 : c2.InRange)
    (h1 m1 s1 h2 m2 s2 : ℤ) (hh1 : 0 ≤ h1 ∧ h1 < 24) (hm1 : 0 ≤ m1 ∧ m1 < 60) (hs1 : 0 ≤ s1 ∧ s1 < 60)
    (hh2 : 0 ≤ h2 ∧ h2 < 24) (hm2 : 0 ≤ m2 ∧ m2 < 60) (hs2 : 0 ≤ s2 ∧ s2 < 60)
    (hlt : c1.before c2 ∨ (c1 = c2 ∧ h1 * 3600 + m1 * 60 + s1 < h2 * 3600 + m2 * 60 + s2)) :
    ∃ j1 j2, toJD (at_ c1 h1 m1 s1) = some j1 ∧ toJD (at_ c2 h2 m2 s2) = some j2 ∧ j1 < j2 := by
  obtain ⟨j1, e1, b1⟩ := toJD_err c1 v1 r1 h1 m1 s1 hh1 hm1 (by constructor <;> [exact_mod_cast hs1.1; exact_mod_cast hs1.2])
  obtain ⟨j2, e2, b2⟩ := toJD_err c2 v2 r2 h2 m2 s2 hh2 hm2 (by constructor <;> [exact_mod_cast hs2.1; exact_mod_cast hs2.2])
  refine ⟨j1, j2, e1, e2, ?_⟩
  have key : 86400 * dayNum c1.y c1.m c1.d + (h1 * 3600 + m1 * 60 + s1) + 1 ≤
      86400 * dayNum c2.y c2.m c2.d + (h2 * 3600 + m2 * 60 + s2) := by
    rcases hlt with hb | ⟨rfl, hb⟩
    · have := dayNum_before c1 c2 v1 v2 hb
      omega
    · omega
  have key' : (86400:ℚ) * dayNum c1.y c1.m c1.d + (h1 * 3600 + m1 * 60 + s1) + 1 ≤
      86400 * dayNum c2.y c2.m c2.d + (h2 * 3600 + m2 * 60 + s2) := by exact_mod_cast key
  rw [abs_le] at b1 b2
  linarith

example : (⟨1582, 10, 4⟩ : CDate).before ⟨1582, 10, 15⟩ := by unfold CDate.before; decide

/-! ## C06 -/

/-- C06, full statement wanted: the printed text is an existing date and clock time, the one nearest to the
instant.  Proved: the text is the civil day containing the instant followed by the number of
seconds since its midnight rounded to nearest — which is an existing clock time except when
that number is 86400 (see `c06_prints_24_00_00`). -/
theorem c06_jd2str_nearest_partial (jd : ℚ) (h1 : 4096 ≤ jd) (h2 : jd ≤ 30000000) :
    ∃ (c : CDate) (n sec : ℤ), c.Valid ∧ toJD (noon c) = some (n : ℚ) ∧
      (n : ℚ) ≤ rnd (jd + 1/2) ∧ rnd (jd + 1/2) < n + 1 ∧
      0 ≤ sec ∧ sec ≤ 86400 ∧ sec = ⌊(rnd (jd + 1/2) - n) * 86400 + 1/2⌋ ∧
      jd2str jd = some (dateText c.y c.m c.d ++ ' ' :: clockText sec) := by
  obtain ⟨N, h, m, x, e, b1, b2, b3, b4, b5, b6, b7, b8, b9⟩ := setFromJD_eq jd h1 (by linarith)
  have hx0 : (0:ℚ) ≤ x := by exact_mod_cast b7
  have hx1 : (x:ℚ) < 60 * 1099511627776 := by exact_mod_cast b8
  have hh0 : (0:ℚ) ≤ ((h * 3600 + m * 60 : ℤ):ℚ) := by exact_mod_cast (by omega)
  have hh1 : ((h * 3600 + m * 60 : ℤ):ℚ) ≤ 86340 := by exact_mod_cast (by omega)
  unfold fadd at b9
  have hNub : N ≤ 30000001 := by
    have : rnd (jd + 1/2) ≤ (30000001 : ℤ) := rnd_le_int (by norm_num) (by push_cast; linarith)
    rw [b9] at this
    have h3 : (0:ℚ) ≤ (((h * 3600 + m * 60 : ℤ):ℚ) + x / 1099511627776) / 86400 := by positivity
    push_cast at this
    have : (N:ℚ) ≤ 30000001 := by push_cast at *; linarith
    exact_mod_cast this
  obtain ⟨c, hv, hr, hc⟩ := ofDay_spec N (by omega)
  have hof : ofDay N = (c.y, c.m, c.d) := by rw [← hc]; exact ofDay_dayNum c hv
  rw [hof] at e
  have hcy : c.y ≤ 99999 := by
    by_contra hcon
    have := dayNum_lower' c.y c.m c.d hv (by omega)
    omega
  obtain ⟨⟨hM1, hM2⟩, ⟨hD1, hD2⟩, -⟩ := valid_bounds hv
  refine ⟨c, N, h * 3600 + m * 60 + (x + 549755813888) / 1099511627776, hv, ?_, ?_, ?_, by omega, by omega, ?_, ?_⟩
  · rw [← hc]; exact toJD_noon c hv ⟨by omega, by omega⟩
  · rw [b9]
    have h3 : (0:ℚ) ≤ (((h * 3600 + m * 60 : ℤ):ℚ) + x / 1099511627776) / 86400 := by positivity
    linarith
  · rw [b9]
    have h4 : (x:ℚ) / 1099511627776 < 60 := by rw [div_lt_iff₀ (by norm_num)]; linarith
    have h3 : (((h * 3600 + m * 60 : ℤ):ℚ) + x / 1099511627776) / 86400 < 1 := by
      rw [div_lt_one (by norm_num)]; linarith
    linarith
  · rw [b9]
    rw [show ((N:ℚ) + (((h * 3600 + m * 60 : ℤ):ℚ) + x / 1099511627776) / 86400 - N) * 86400 + 1/2 =
      ((h * 3600 + m * 60 : ℤ):ℚ) + ((x + 549755813888 : ℤ) : ℚ) / 1099511627776 by push_cast; ring]
    rw [Int.floor_intCast_add, floor_div_pow]
  · unfold jd2str
    rw [e]
    simp only [Option.bind_eq_bind, Option.bind_some]
    exact dd2str_eq _ _ _ _ _ _ (by omega) (by omega) ⟨b3, b4⟩ ⟨b5, b6⟩ ⟨b7, b8⟩ (decimal_length5 _ (by omega) (by omega))

/-- C06 is violated: a quarter of a second before midnight prints `24:00:00`. -/
theorem c06_prints_24_00_00 :
    jd2str (2451544 + 1/2 - 1/2^18) = some " 1999-12-31 24:00:00".toList ∧ IsDouble (2451544 + 1/2 - 1/2^18) := by
  unfold IsDouble; decide +kernel

/-! ## C07 -/

/-- C07, full statement wanted: hh < 24.  Proved: the text is the number of seconds since midnight rounded to
nearest; `c07_prints_24_00_00` shows the exception. -/
theorem c07_timeStr_nearest_partial (jd : ℚ) (h1 : 4096 ≤ jd) (h2 : jd ≤ 1790000000) :
    ∃ n sec : ℤ, (n : ℚ) ≤ rnd (jd + 1/2) ∧ rnd (jd + 1/2) < n + 1 ∧
      0 ≤ sec ∧ sec ≤ 86400 ∧ sec = ⌊(rnd (jd + 1/2) - n) * 86400 + 1/2⌋ ∧
      timeStr jd = some (clockText sec) :=
  timeStr_eq jd h1 h2

theorem c07_prints_24_00_00 :
    timeStr (2451544 + 1/2 - 1/2^18) = some "24:00:00".toList := by decide +kernel

example : timeStr (2451545 + 1/3) = some (clockText 72000) := by decide +kernel

end Verif.Cal
