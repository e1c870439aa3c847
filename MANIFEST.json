{
 "claims": [
  {
   "property": "C01",
   "status": "proved",
   "theorems": [
    "Verif.Cal.c01_toJD_next",
    "Verif.Cal.c01_toJD_anchor",
    "Verif.Cal.c01_before_range_wrong",
    "Verif.Cal.c01_overflow"
   ],
   "note": "Proved for every civil date from -4716-03-01 to the end of year 4900000 (IEEE doubles, 32-bit int overflow modelled). Missing / false outside: -4716-01-01..02-29 are miscounted (witness theorem), years near 5.8 million overflow int (witness theorem)."
  },
  {
   "property": "C02",
   "status": "proved",
   "theorems": [
    "Verif.Cal.c02_date_roundtrip",
    "Verif.Cal.c02_noon_roundtrip"
   ],
   "note": "Every civil date with -4700 <= year <= 4900000 and every whole second of the day; noon on the whole range."
  },
  {
   "property": "C03",
   "status": "proved",
   "theorems": [
    "Verif.Cal.c03_text_roundtrip"
   ],
   "note": "Five-column years -4700..99999, every whole second."
  },
  {
   "property": "C04",
   "status": "proved",
   "theorems": [
    "Verif.Cal.c04_setFromJD_valid"
   ],
   "note": "Every jd in [4096, 1.79e9]; date and time denote exactly the double jd+0.5 (one rounding)."
  },
  {
   "property": "C05",
   "status": "proved",
   "theorems": [
    "Verif.Cal.c05_toJD_strictMono"
   ],
   "note": "All pairs of civil dates in range, whole seconds."
  },
  {
   "property": "C06",
   "status": "partial",
   "theorems": [
    "Verif.Cal.c06_jd2str_nearest_partial",
    "Verif.Cal.c06_prints_24_00_00"
   ],
   "note": "The text is the nearest second of the containing day; but in the last half second it prints 24:00:00 (witness theorem): the property as stated is false of the code."
  },
  {
   "property": "C07",
   "status": "partial",
   "theorems": [
    "Verif.Cal.c07_timeStr_nearest_partial",
    "Verif.Cal.c07_timeStr_any",
    "Verif.Cal.c07_prints_24_00_00"
   ],
   "note": "Same as C06."
  },
  {
   "property": "C08",
   "status": "proved",
   "theorems": [
    "Verif.Cal.c08_sheet_days",
    "Verif.Cal.c08_sheet_rows"
   ],
   "note": "Gregorian half of yueLiCalc, every month of every year in range, October 1582 included."
  },
  {
   "property": "C09",
   "status": "proved",
   "theorems": [
    "Verif.Cal.c09_weekday_step",
    "Verif.Cal.c09_weekday_anchor"
   ],
   "note": "Weekday written into the day record by yueLiCalc."
  },
  {
   "property": "C10",
   "status": "proved",
   "theorems": [
    "Verif.Hijri.c10_hijri_next",
    "Verif.Hijri.c10_hijri_epoch"
   ],
   "note": "Induction step plus anchor: getHuiLi agrees with the tabular calendar on every integer day, |n| <= 2e9, in IEEE doubles."
  },
  {
   "property": "C11",
   "status": "proved",
   "theorems": [
    "Verif.GanZhi.c11_dayName_cycle",
    "Verif.GanZhi.c11_dayName_period",
    "Verif.GanZhi.c11_dayName_anchor",
    "Verif.GanZhi.c11_below_undefined"
   ],
   "note": "d0 from -8999994 on; one day earlier is an out-of-bounds read (witness)."
  },
  {
   "property": "C12",
   "status": "proved",
   "theorems": [
    "Verif.GanZhi.c12_baZi"
   ],
   "note": "The solar-longitude index k and the local true solar time are inputs (arbitrary); the pillar logic is the code's, in IEEE doubles and 32-bit ints. Day and double-hour boundaries are exact up to 1e-7 day (double rounding of jd+13/24)."
  },
  {
   "property": "C26",
   "status": "proved",
   "theorems": [
    "Verif.Itoa.c26_toText"
   ],
   "note": "All widths and signs; reciprocal multiplication blocks with 32/64-bit wrap-around; buffer effect given exactly."
  },
  {
   "property": "C27",
   "status": "partial",
   "theorems": [
    "Verif.NumText.c27_roundtrip_partial"
   ],
   "note": "Holds after every history without an out_of_range report; after an overflowing call errno stays ERANGE and the round trip throws (c28_stale_errno)."
  },
  {
   "property": "C28",
   "status": "partial",
   "theorems": [
    "Verif.NumText.c28_stoi_partial",
    "Verif.NumText.c28_in_int_partial",
    "Verif.NumText.c28_truncates",
    "Verif.NumText.c28_stale_errno"
   ],
   "note": "Exact behaviour proved for every numeral and errno state; the property itself is false of the code (two witnesses)."
  },
  {
   "property": "C29",
   "status": "partial",
   "theorems": [
    "Verif.Grisu.c29_double_partial",
    "Verif.Dtoa.c29_fixed_partial",
    "Verif.Dtoa.c29_carry_defect"
   ],
   "note": "proved for every double 1e-6 <= x < 1e21 (digits from the proved Grisu2 model, no oracle) and precision >= 1, outside the carry defect (to_str(19.96,1) = 110.0), which is characterised exactly; the fixed-precision promise is false outside this range, so the full property cannot be proved of this code"
  },
  {
   "property": "C30",
   "status": "proved",
   "theorems": [
    "Verif.NumText.c30_to_str_pad",
    "Verif.NumText.c30_out_of_range_undefined"
   ],
   "note": "Exactly when the padding is defined, and what it is."
  },
  {
   "property": "C31",
   "status": "proved",
   "theorems": [
    "Verif.StrOps.c31_string_replace",
    "Verif.StrOps.c31_replaced_unique",
    "Verif.StrOps.c31_char",
    "Verif.StrOps.c31_empty_pattern_diverges"
   ],
   "note": "Non-empty patterns; the empty pattern diverges (proved)."
  },
  {
   "property": "C32",
   "status": "proved",
   "theorems": [
    "Verif.StrOps.c32_split_join",
    "Verif.StrOps.c32_join_split",
    "Verif.StrOps.c32_two_char_throws"
   ],
   "note": "One-character separators (the only ones used); a longer separator can throw (witness)."
  },
  {
   "property": "C33",
   "status": "proved",
   "theorems": [
    "Verif.StrOps.c33_fill_str"
   ],
   "note": ""
  },
  {
   "property": "C13",
   "status": "proved",
   "theorems": [
    "Verif.Era.c13_getNH",
    "Verif.Era.c13_empty_iff",
    "Verif.Era.c13_table_split"
   ],
   "note": "Whole table transcribed by tools/gen_era.py; every int year; errno clean on entry (see C28 otherwise). Two holes found in the table: -1989..-1987 and 177."
  },
  {
   "property": "C14",
   "status": "proved",
   "theorems": [
    "Verif.Fest.c15_festivals"
   ],
   "note": "on every day of every month sheet the weekday festivals are exactly those of the n-th (or last) such weekday; table strings checked against the record table"
  },
  {
   "property": "C15",
   "status": "proved",
   "theorems": [
    "Verif.Fest.c15_festivals"
   ],
   "note": "exactly the fixed-date festivals in force; also the day-off flag (relative to its uninitialised previous value)"
  },
  {
   "property": "C16",
   "status": "partial",
   "theorems": [
    "Verif.Fest.c16_marks_partial",
    "Verif.Fest.c16_laba_missing"
   ],
   "note": "everything but Laba, which the code never marks (proved)"
  },
  {
   "property": "C17",
   "status": "proved",
   "theorems": [
    "Verif.Fest.c17_marks"
   ],
   "note": "dog days by counting Geng days, plum rains, nine nines"
  },
  {
   "property": "C18",
   "status": "proved",
   "theorems": [
    "Verif.Lunar.c18_leap",
    "Verif.Lunar.c18_leap_first",
    "Verif.Lunar.c18_twelve_or_thirteen",
    "Verif.Lunar.c18_name",
    "Verif.Lunar.c18_name_set",
    "Verif.Lunar.c18_name_historic",
    "Verif.Lunar.c18_name_rule",
    "Verif.Lunar.c18_ancient_name_set"
   ],
   "note": "for all terms and new moons with months of 29/30 days; month names are the usual ones outside the four historical renaming intervals and the historical ones inside"
  },
  {
   "property": "C19",
   "status": "proved",
   "theorems": [
    "Verif.Lunar.c19_month",
    "Verif.Lunar.c20_day"
   ],
   "note": "for every day of the year tables, in double arithmetic"
  },
  {
   "property": "C20",
   "status": "proved",
   "theorems": [
    "Verif.Lunar.c20_term",
    "Verif.Lunar.c20_pillarMonth",
    "Verif.Lunar.c20_zodiac",
    "Verif.Lunar.c20_yearLichun",
    "Verif.Lunar.c20_yearSpring",
    "Verif.Lunar.c20_day"
   ],
   "note": "every field of the lunar record for every day between two solstices, years -8000..12000"
  },
  {
   "property": "C21",
   "status": "proved",
   "theorems": [
    "Verif.Lunar.c21_history"
   ],
   "note": "for every history of month sheets and year texts, given a sane solar-term calculator"
  },
  {
   "property": "C22",
   "status": "proved",
   "theorems": [
    "Verif.Ssq.c22_jieya",
    "Verif.Ssq.c22_tables"
   ],
   "note": "decompression of every string over the alphabet; the two tables have exactly 16598 and 7567 digits"
  },
  {
   "property": "C23",
   "status": "proved",
   "theorems": [
    "Verif.Ssq.c23_defined",
    "Verif.Ssq.c23_mean",
    "Verif.Ssq.c23_corrected",
    "Verif.Ssq.c23_coarse",
    "Verif.Ssq.c23_modern"
   ],
   "note": "double arithmetic throughout; the four series are arbitrary functions with results in int range; the day formula is stated with the exact decimal constants"
  },
  {
   "property": "C24",
   "status": "proved",
   "theorems": [
    "Verif.Ssq.c24_steps"
   ],
   "note": "every row of both tables, including the moved day of 103 BC"
  },
  {
   "property": "C25",
   "status": "proved",
   "theorems": [
    "Verif.DeltaT.c25_row",
    "Verif.DeltaT.c25_ext",
    "Verif.DeltaT.c25_row_joins",
    "Verif.DeltaT.c25_continuous",
    "Verif.DeltaT.c25_accuracy"
   ],
   "note": "dt_calc exact-arithmetic and double semantics on the real table; never out of bounds for a real year (NaN, not modelled, would run off); cubic of the row of the year, 1e-8 s rounding bound, row joins differ by up to 4.4 s, continuous at 2028 and 2128"
  },
  {
   "property": "C46",
   "status": "partial",
   "theorems": [
    "Verif.Sort.c46_push_heap",
    "Verif.Sort.c46_make_heap",
    "Verif.Sort.c46_pop_heap",
    "Verif.Sort.c46_sort_heap",
    "Verif.Sort.c46_partial_sort",
    "Verif.Sort.c46_sort_partial",
    "Verif.Sort.c46_sort_defect"
   ],
   "note": "heap algorithms and partial_sort proved on every range; sort is proved to stay in bounds and give a sorted range always, a permutation up to 128 elements; beyond 128 it loses elements (c46_sort_defect), the exact outcome being the running maximum given in c46_sort_partial"
  },
  {
   "property": "C47",
   "status": "proved",
   "theorems": [
    "Verif.Search.c47_lower_bound",
    "Verif.Search.c47_upper_bound",
    "Verif.Search.c47_binary_search",
    "Verif.Search.c47_equal_range",
    "Verif.Search.c47_equal_range_forward",
    "Verif.Search.c47_binary_search_comp_defect"
   ],
   "note": "for every strict weak order; equal_range returns the end when nothing matches (proved as such); binary_search with a comparison object is defective (counterexample proved)"
  },
  {
   "property": "C48",
   "status": "proved",
   "theorems": [
    "Verif.SetAlgo.c48_union",
    "Verif.SetAlgo.c48_intersection",
    "Verif.SetAlgo.c48_difference",
    "Verif.SetAlgo.c48_symmetric_difference",
    "Verif.SetAlgo.c48_merge",
    "Verif.SetAlgo.c48_includes"
   ],
   "note": "every pair of sorted sequences and every strict weak order; also which copies are taken"
  },
  {
   "property": "C44",
   "status": "proved",
   "theorems": [
    "Verif.Vector.c44_step",
    "Verif.Vector.c44_history",
    "Verif.Vector.c44_returned",
    "Verif.Vector.c44_capacity",
    "Verif.Vector.c44_self_push_defect",
    "Verif.Vector.c44_emplace_alias_defect"
   ],
   "note": "every history on a pair of vectors of any element type, including which exceptions; arguments that alias an element are covered for trivially copyable types (for others push_back(v[i]) at full capacity is proved defective, as is emplace with an aliasing argument); allocation failure and throwing element copies are not modelled"
  },
  {
   "property": "C45",
   "status": "proved",
   "theorems": [
    "Verif.Rb.c45_history",
    "Verif.Rb.c45_destructor",
    "Verif.Rb.c45_copy",
    "Verif.Rb.c45_insert",
    "Verif.Rb.c45_hint",
    "Verif.Rb.c45_erase",
    "Verif.Rb.c45_iterators",
    "Verif.Rb.c45_logarithmic",
    "Verif.Rb.c45_at_defect",
    "Verif.Rb.c45_duplicate",
    "Verif.Rb.c45_moved"
   ],
   "note": "pointer-level model of rb_tree and map (rotations, rebalancing, unlinking, hints, iterators, erase_since, copy_from); exceptions, max_size and swap/move assignment are not modelled; at() is proved to deviate from the standard"
  },
  {
   "property": "C34",
   "status": "proved",
   "theorems": [
    "Verif.AngleText.c34_rad2strE",
    "Verif.AngleText.c34_rad2str2",
    "Verif.AngleText.c34_limits"
   ],
   "note": "binary64 arithmetic, every angle up to 17 rad, 1-6 decimals; the text and its value against the real pi; limits (0 decimals, >= 1000 degrees) stated"
  },
  {
   "property": "C35",
   "status": "partial",
   "theorems": [
    "Verif.Grisu.c35_double_partial",
    "Verif.MinSec.c35_m2fm_partial",
    "Verif.MinSec.c35_whole_minutes",
    "Verif.MinSec.c35_carry_defect",
    "Verif.MinSec.c35_tiny_defect"
   ],
   "note": "binary64 arithmetic, every |v| < 2147483640 and 1-27 decimals, the digits of the seconds come from the proved Grisu2 model; the property itself fails in the code: 59.996 prints as 150.00 seconds, seconds below 1e-6 print with an exponent"
  },
  {
   "property": "C36",
   "status": "proved",
   "theorems": [
    "Verif.AngleNorm.c36_mrad",
    "Verif.AngleNorm.c36_rrad",
    "Verif.AngleNorm.c36_true_turns",
    "Verif.AngleNorm.c36_mrad_full_circle",
    "Verif.Geom.c36_mrad_real",
    "Verif.Geom.c36_rrad_real",
    "Verif.Geom.c36_mrad_unique",
    "Verif.Geom.c36_rrad_unique"
   ],
   "note": "in doubles for every finite argument, and in exact arithmetic"
  },
  {
   "property": "C37",
   "status": "proved",
   "theorems": [
    "Verif.Geom.c37_xyz_llr_xyz",
    "Verif.Geom.c37_llr_xyz_llr",
    "Verif.Geom.c37_range",
    "Verif.Geom.c37_h2g"
   ],
   "note": "exact real arithmetic with the mathematical functions in place of libm; the rounding of doubles is not modelled"
  },
  {
   "property": "C38",
   "status": "proved",
   "theorems": [
    "Verif.Geom.c38_rotation",
    "Verif.Geom.c38_inverse",
    "Verif.Geom.c38_horizontal",
    "Verif.Geom.c38_angle",
    "Verif.Geom.c38_angle_turns",
    "Verif.Geom.c38_angle_symm"
   ],
   "note": "exact real arithmetic; j1_j2's small-angle shortcut is covered only by the symmetry and whole-turn theorems"
  },
  {
   "property": "C39",
   "status": "proved",
   "theorems": [
    "Verif.Geom.c39_lineEll",
    "Verif.Geom.c39_lineEar2"
   ],
   "note": "exact real arithmetic"
  },
  {
   "property": "C40",
   "status": "partial",
   "theorems": [
    "Verif.Geom.c40_lineOvl",
    "Verif.Geom.c40_circles",
    "Verif.Geom.c40_ellipse_partial"
   ],
   "note": "exact real arithmetic; lineOvl and circles in full; for a true ellipse cirOvl makes one correction only, so its points are on the circle exactly but on the ellipse up to 1/ba^2-1"
  },
  {
   "property": "C41",
   "status": "proved",
   "theorems": [
    "Verif.Geom.c41_lineT",
    "Verif.Geom.c41_marker_ambiguous"
   ],
   "note": "exact real arithmetic; the mark 0 is also a possible contact time (shown)"
  },
  {
   "property": "C52",
   "status": "proved",
   "theorems": [
    "Verif.Geom.c52_bessel_round_trip"
   ],
   "note": "exact real arithmetic"
  },
  {
   "property": "C53",
   "status": "proved",
   "theorems": [
    "Verif.AngleNorm.c53_moonIll"
   ],
   "note": "double arithmetic; the library cosine is only assumed to stay in [-1,1]"
  },
  {
   "property": "C42",
   "status": "partial",
   "theorems": [
    "Verif.Geom.c42_classification",
    "Verif.Geom.c42_history",
    "Verif.Geom.c42_contacts_partial"
   ],
   "note": "exact real arithmetic, the ephemeris is a parameter; classification, magnitude and history in full; contact times only for uniform motion past a shadow of constant size (the program makes one refinement step, so for the true motion they are approximations)"
  },
  {
   "property": "C43",
   "status": "proved",
   "theorems": [
    "Verif.Geom.c43_quick_types",
    "Verif.Geom.c43_quick_meaning",
    "Verif.Geom.c43_quick_central",
    "Verif.Geom.c43_quick_mixed",
    "Verif.Geom.c43_closest",
    "Verif.Geom.c43_feature_types",
    "Verif.Geom.c43_feature_noncentral",
    "Verif.Geom.c43_feature_central",
    "Verif.Geom.c43_labels",
    "Verif.Geom.c43_mixed_labels",
    "Verif.Geom.c43_search",
    "Verif.Geom.c43_certain",
    "Verif.Geom.c43_magnitude"
   ],
   "note": "exact real arithmetic, the ephemeris is a parameter; the wrong descriptions of H and A1 are shown by c43_mixed_labels"
  },
  {
   "property": "C54",
   "status": "proved",
   "theorems": [
    "Verif.Geom.c54_in_bounds",
    "Verif.Geom.c54_nodes",
    "Verif.Geom.c54_polynomial",
    "Verif.Geom.c54_history",
    "Verif.Geom.c54_numbering",
    "Verif.Geom.c54_continuous"
   ],
   "note": "exact real arithmetic, the ephemeris is a parameter"
  },
  {
   "property": "C49",
   "status": "proved",
   "theorems": [
    "Verif.Geom.c49_table",
    "Verif.Geom.c49_first",
    "Verif.Geom.c49_bounds",
    "Verif.Geom.c49_history"
   ],
   "note": "the ephemeris is a parameter; the dependence on earlier calls is shown by c49_history and its example"
  },
  {
   "property": "C55",
   "status": "partial",
   "theorems": [
    "Verif.Geom.c55_getH",
    "Verif.Geom.c55_mod2",
    "Verif.Geom.c55_uniform",
    "Verif.Geom.c55_remarks"
   ],
   "note": "exact real arithmetic, the ephemeris is a parameter; St only for uniform motion with constant declination (for the true motion of the built-in sun see C82)"
  },
  {
   "property": "C51",
   "status": "proved",
   "theorems": [
    "Verif.Series.c51_planets",
    "Verif.Series.c51_counts",
    "Verif.Series.c51_moon",
    "Verif.Series.c51_moon_counts",
    "Verif.Series.c51_pluto",
    "Verif.Series.c51_prece"
   ],
   "note": "exact real arithmetic; the coefficients are parameters, the lengths and index entries of the tables are transcribed"
  },
  {
   "property": "C56",
   "status": "proved",
   "theorems": [
    "Verif.Precession.c56_equatorial",
    "Verif.Precession.c56_equatorial_rigid",
    "Verif.Precession.c56_ecliptic",
    "Verif.Precession.c56_epoch"
   ],
   "note": "exact real arithmetic; for the ecliptic conversion also the intermediate direction and the result must not be poles"
  },
  {
   "property": "C57",
   "status": "proved",
   "theorems": [
    "Verif.Precession.c57_parallax",
    "Verif.Precession.c57_site"
   ],
   "note": "exact real arithmetic"
  },
  {
   "property": "C58",
   "status": "proved",
   "theorems": [
    "Verif.Precession.c58_nutation",
    "Verif.Precession.c58_nutation2",
    "Verif.Precession.c58_filter_defect"
   ],
   "note": "exact real arithmetic, the coefficients are parameters; that the filter is wrong is c58_filter_defect"
  },
  {
   "property": "C50",
   "status": "proved",
   "theorems": [
    "Verif.City.c50_names",
    "Verif.City.c50_codec",
    "Verif.City.c50_search",
    "Verif.City.c50_absent",
    "Verif.City.c50_menu_general",
    "Verif.City.c50_menu",
    "Verif.City.c50_range",
    "Verif.City.c50_inputs",
    "Verif.City.c50_inner",
    "Verif.City.c50_defect"
   ],
   "note": "terminal input and output are not modelled: what the user enters is an argument; isalnum of bytes over 127 is taken to be 0"
  },
  {
   "property": "C59",
   "status": "proved",
   "theorems": [
    "Verif.Grisu.c59_read_back",
    "Verif.Grisu.c59_out_of_bounds"
   ],
   "note": "the memory behind kPow10 (entries 10 to 16) is assumed readable with any content; that the code reads it at all is the defect c59_out_of_bounds"
  },
  {
   "property": "C60",
   "status": "proved",
   "theorems": [
    "Verif.Lunar.c21_sheet",
    "Verif.Lunar.c21_sheet_historic"
   ],
   "note": "c21_sheet: days outside -721..-104 for every calculator within the stated distance of the mean motion (months of 29 or 30 days, one month in fifteen may have 28); c21_sheet_historic: all days from 721 BC on, over the reform of 104 BC, with the pre-reform month names"
  },
  {
   "property": "C61",
   "status": "proved",
   "theorems": [
    "Verif.Lunar.c60_mean_era"
   ],
   "note": "no hypothesis on the calculator: the double arithmetic of SSQ::calc is followed to the day; specification of the mean motion in MeanEraSpec"
  },
  {
   "property": "C62",
   "status": "proved",
   "theorems": [
    "Verif.Lunar.c62_phases",
    "Verif.Lunar.c62_terms"
   ],
   "note": "binary64 arithmetic of the search; MS_aLon, S_aLon, so_accurate and qi_accurate are parameters"
  },
  {
   "property": "C63",
   "status": "proved",
   "theorems": [
    "Verif.Lunar.c63_year_text",
    "Verif.Lunar.c63_year_text_historic",
    "Verif.Lunar.c63_mean_era"
   ],
   "note": "binary64 arithmetic, byte lengths of the UTF-8 texts; the ephemeris so_accurate, qi_accurate is a parameter; c63_mean_era needs no hypothesis on the calculator"
  },
  {
   "property": "C64",
   "status": "proved",
   "theorems": [
    "Verif.Permute.c64_reverse",
    "Verif.Permute.c64_rotate"
   ],
   "note": "reverse: bidirectional and random access; rotate: forward, bidirectional, random access (cycles)"
  },
  {
   "property": "C65",
   "status": "proved",
   "theorems": [
    "Verif.Permute.c65_next_permutation",
    "Verif.Permute.c65_prev_permutation"
   ],
   "note": "any strict weak order"
  },
  {
   "property": "C66",
   "status": "proved",
   "theorems": [
    "Verif.Permute.c66_inplace_merge"
   ],
   "note": "buffer of any size and content, or none; both overload families"
  },
  {
   "property": "C67",
   "status": "partial",
   "theorems": [
    "Verif.Sort.c67_nth_element_partial",
    "Verif.Sort.c67_nth_element_defect",
    "Verif.Sort.c67_nth_element_comp_diverges"
   ],
   "note": "ends and permutes the range (operator<), sorted up to three elements; the selection itself is false of the code and so is termination with a comparison object (witness theorems)"
  },
  {
   "property": "C68",
   "status": "proved",
   "theorems": [
    "Verif.Scan.c68_remove",
    "Verif.Scan.c68_remove_if",
    "Verif.Scan.c68_remove_copy_if",
    "Verif.Scan.c68_unique",
    "Verif.Scan.c68_unique_copy",
    "Verif.Scan.c68_adjacent_find",
    "Verif.Scan.c68_partition",
    "Verif.Scan.c68_partition_copy",
    "Verif.Scan.c68_remove_alias_defect"
   ],
   "note": "any predicate; remove with a constant or a reference outside the range"
  },
  {
   "property": "C69",
   "status": "proved",
   "theorems": [
    "Verif.Scan.c69_search",
    "Verif.Scan.c69_find_end_forward",
    "Verif.Scan.c69_find_end_bidirectional",
    "Verif.Scan.c69_search_n"
   ],
   "note": "any binary predicate"
  },
  {
   "property": "C70",
   "status": "proved",
   "theorems": [
    "Verif.Scan.c70_is_permutation"
   ],
   "note": "any equivalence relation; the int counters are modelled as unbounded"
  },
  {
   "property": "C71",
   "status": "proved",
   "theorems": [
    "Verif.Geom.c71_classification",
    "Verif.Geom.c71_no_angles",
    "Verif.Geom.c71_no_sunrise",
    "Verif.Geom.c71_instant",
    "Verif.Geom.c71_depth",
    "Verif.Geom.c71_visible",
    "Verif.Geom.c71_uniform",
    "Verif.Geom.c71_angles",
    "Verif.Geom.c71_sunrise",
    "Verif.Geom.c71_history",
    "Verif.Geom.c71_polar_times_lost",
    "Verif.Geom.c71_polar_example"
   ],
   "note": "exact real arithmetic; the ephemeris (secXY, deltaT, parallactic angle, rough sun) is a parameter"
  },
  {
   "property": "C72",
   "status": "proved",
   "theorems": [
    "Verif.Geom.c72_body",
    "Verif.Geom.c72_line",
    "Verif.Geom.c72_panel",
    "Verif.Geom.c72_time",
    "Verif.Geom.c72_axis",
    "Verif.Geom.c72_shadow",
    "Verif.Geom.c72_history"
   ],
   "note": "exact real arithmetic; the ephemeris (m_coord, e_coord, nutation2, aberration, pGST, dt_T, moonIll) is a parameter; the text output MSC::toStr is not modelled here"
  },
  {
   "property": "C73",
   "status": "proved",
   "theorems": [
    "Verif.Geom.c73_refraction",
    "Verif.Geom.c73_lifts",
    "Verif.Geom.c73_lowers_zenith",
    "Verif.Geom.c73_jump"
   ],
   "note": "exact real arithmetic"
  },
  {
   "property": "C74",
   "status": "proved",
   "theorems": [
    "Verif.Longitude.c74_sun",
    "Verif.Longitude.c74_terms"
   ],
   "note": "exact real arithmetic with the built-in Earth and nutation series (generated from eph_data.h)"
  },
  {
   "property": "C75",
   "status": "proved",
   "theorems": [
    "Verif.Longitude.c75_moon",
    "Verif.Longitude.c75_months"
   ],
   "note": "exact real arithmetic with the built-in Earth and moon series; the true equation is MS_aLon with all terms"
  },
  {
   "property": "C76",
   "status": "proved",
   "theorems": [
    "Verif.Longitude.c76_fast",
    "Verif.Longitude.c76_day"
   ],
   "note": "exact real arithmetic with the built-in series; dt_T is a parameter bounded below by minus a century"
  },
  {
   "property": "C77",
   "status": "proved",
   "theorems": [
    "Verif.Longitude.c77_fast",
    "Verif.Longitude.c77_day"
   ],
   "note": "exact real arithmetic with the built-in series; dt_T is a parameter bounded below by minus a century"
  },
  {
   "property": "C78",
   "status": "proved",
   "theorems": [
    "Verif.Longitude.c78_instants",
    "Verif.Longitude.c78_days",
    "Verif.Longitude.c78_builtin"
   ],
   "note": "exact real arithmetic with the built-in series"
  },
  {
   "property": "C79",
   "status": "proved",
   "theorems": [
    "Verif.Modern.c79_modern"
   ],
   "note": "the calculator ssqCalc in the rounding model with the two fine series as parameters; assumed of them: each value gives the day of the exact series (HighTime, built-in tables) at an angle within 1e-6 rad; met by the exact series (exactSeries_fine)"
  },
  {
   "property": "C80",
   "status": "proved",
   "theorems": [
    "Verif.EqTime.c80_equation_of_time",
    "Verif.EqTime.c80_precise",
    "Verif.EqTime.c80_agree",
    "Verif.EqTime.c80_rate",
    "Verif.EqTime.c80_true_time"
   ],
   "note": "exact real arithmetic with the built-in series and the built-in slow-down of the Earth's rotation"
  },
  {
   "property": "C81",
   "status": "proved",
   "theorems": [
    "Verif.DList.c81_history",
    "Verif.DList.c81_prefix",
    "Verif.DList.c81_all_freed",
    "Verif.DList.c81_equal",
    "Verif.DList.c81_returned",
    "Verif.DList.c81_defect_moved_from",
    "Verif.DList.c81_defect_remove_own_element",
    "Verif.DList.c81_defect_splice_range_within"
   ],
   "note": "pointer-level model; exceptions of element constructors and the length error are not modelled"
  },
  {
   "property": "C82",
   "status": "proved",
   "theorems": [
    "Verif.SunTimes.c82_sunrise",
    "Verif.SunTimes.c82_twilight",
    "Verif.SunTimes.c82_noon",
    "Verif.SunTimes.c82_no_remark",
    "Verif.SunTimes.c82_moonrise",
    "Verif.SunTimes.c82_moon_culmination",
    "Verif.SunTimes.c82_moon_start"
   ],
   "note": "exact real arithmetic; the sun with the built-in series and slow-down of the Earth's rotation, the moon for any ephemeris of bounded speed"
  },
  {
   "property": "C83",
   "status": "proved",
   "theorems": [
    "Verif.Geom.c83_penumbra",
    "Verif.Geom.c83_umbra",
    "Verif.Geom.c83_centre",
    "Verif.Geom.c83_table",
    "Verif.Geom.c83_limb",
    "Verif.Geom.c83_contact"
   ],
   "note": "exact real arithmetic, the ephemeris a parameter; three rounds of the iteration, so the direction is square to the motion at the last ground estimate, not at the final place"
  },
  {
   "property": "C84",
   "status": "proved",
   "theorems": [
    "Verif.Geom.c84_cones",
    "Verif.Geom.c84_centre",
    "Verif.Geom.c84_limit",
    "Verif.Geom.c84_report"
   ],
   "note": "exact real arithmetic, the ephemeris a parameter"
  },
  {
   "property": "C85",
   "status": "proved",
   "theorems": [
    "Verif.Pq.c85_history",
    "Verif.Pq.c85_drain"
   ],
   "note": "the underlying vector is the sequence of its elements (C44 is its own property); self-moves excluded"
  },
  {
   "property": "C86",
   "status": "proved",
   "theorems": [
    "Verif.Numeric.c86_accumulate",
    "Verif.Numeric.c86_sum",
    "Verif.Numeric.c86_inner_product",
    "Verif.Numeric.c86_iota",
    "Verif.Numeric.c86_adjacent_difference",
    "Verif.Numeric.c86_partial_sum",
    "Verif.Numeric.c86_empty",
    "Verif.Numeric.c86_inverse"
   ],
   "note": "output starting inside the range after its first element is excluded (it overwrites what is still to be read)"
  },
  {
   "property": "C87",
   "status": "proved",
   "theorems": [
    "Verif.StaticArray.c87_history",
    "Verif.StaticArray.c87_iterate",
    "Verif.StaticArray.c87_copy_iterates_source",
    "Verif.StaticArray.c87_long_list"
   ],
   "note": "two theorems state defects: a copy iterates over its source, a list longer than N is written past the elements"
  },
  {
   "property": "C88",
   "status": "proved",
   "theorems": [
    "Verif.Geom.c88_umbra",
    "Verif.Geom.c88_penumbra",
    "Verif.Geom.c88_total",
    "Verif.Geom.c88_greatest",
    "Verif.Geom.c88_grazing_zero",
    "Verif.Geom.contact_demo"
   ],
   "note": "exact real arithmetic, the ephemeris a parameter; the last theorem is a defect: for a grazing eclipse the second round may return the marker 0 as the time of contact"
  },
  {
   "property": "C89",
   "status": "proved",
   "theorems": [
    "Verif.Hash.c89_history",
    "Verif.Hash.c89_of_range",
    "Verif.Hash.c89_erase_range",
    "Verif.Hash.c89_bucket_count",
    "Verif.Hash.c89_bucket_prime",
    "Verif.Hash.primeList_prime",
    "Verif.Hash.c89_moved_from",
    "Verif.Hash.c89_rebuild_leaks",
    "Verif.Hash.c89_emplace_leaks"
   ],
   "note": "the float comparisons of the load factor are arbitrary functions; exceptions not modelled; self-moves excluded; the last three theorems are defects: a moved-from table divides by zero, a rebuild never frees the old nodes, emplace of a present key leaks its node"
  },
  {
   "property": "C90",
   "status": "proved",
   "theorems": [
    "Verif.Hash.c90_history",
    "Verif.Hash.c90_of_range",
    "Verif.Hash.c90_erase_key_undefined"
   ],
   "note": "as C89; the last theorem states the defect of erase(key), which the history therefore leaves out"
  },
  {
   "property": "C91",
   "status": "proved",
   "theorems": [
    "Verif.Geom.c91_search",
    "Verif.Geom.c91_none_missed",
    "Verif.Geom.c91_first",
    "Verif.Geom.c91_same_moon",
    "Verif.Longitude.c91_new_moon"
   ],
   "note": "exact real arithmetic; the series for latitude and distance, and the full computation, are parameters"
  },
  {
   "property": "C92",
   "status": "proved",
   "theorems": [
    "Verif.Apsides.moonMinR_near",
    "Verif.Apsides.earthMinR_near",
    "Verif.Apsides.daJu_near",
    "Verif.Apsides.xingLiu_near",
    "Verif.Apsides.Dip.lowest",
    "Verif.Apsides.quadratic_exact",
    "Verif.Apsides.moonMinR_walk",
    "Verif.Apsides.earthMinR_walk",
    "Verif.Apsides.daJu_walk"
   ],
   "note": "exact real arithmetic; the distance, elongation and right ascension are parameters with the bounds stated"
  },
  {
   "property": "C93",
   "status": "proved",
   "theorems": [
    "Verif.Apsides.moonNode_near",
    "Verif.Apsides.moonNode_walk",
    "Verif.Apsides.Pass.rounds",
    "Verif.Apsides.xingHR_near",
    "Verif.Apsides.xingHY_near"
   ],
   "note": "exact real arithmetic; latitude, longitudes and right ascensions are parameters with the bounds stated"
  },
  {
   "property": "C94",
   "status": "proved",
   "theorems": [
    "Verif.Geom.c94_session",
    "Verif.Geom.c94_fresh",
    "Verif.Geom.c94_there_and_back",
    "Verif.Geom.c94_list_moves",
    "Verif.Geom.c94_no_result",
    "Verif.Geom.c94_names"
   ],
   "note": "exact real arithmetic; ephemeris and RS_GS::feature are parameters; the defects are proved"
  },
  {
   "property": "C95",
   "status": "proved",
   "theorems": [
    "Verif.Cal.c95_panel",
    "Verif.Cal.c95_eq_table",
    "Verif.Cal.c95_sun_row",
    "Verif.Cal.c95_sun_table",
    "Verif.Cal.c95_whole_year",
    "Verif.Cal.c95_rise_column_short"
   ],
   "note": "doubles; the instants computed are parameters; the defect of the column of risings is proved"
  },
  {
   "property": "C96",
   "status": "proved",
   "theorems": [
    "Verif.Geom.c96_planet",
    "Verif.Geom.c96_moon",
    "Verif.Geom.c96_light",
    "Verif.Geom.c96_unset"
   ],
   "note": "exact real arithmetic; the series and the texts of numbers are parameters; the defect is proved"
  },
  {
   "property": "C97",
   "status": "proved",
   "theorems": [
    "Verif.Cal.c97_report",
    "Verif.Cal.c97_timetable",
    "Verif.Cal.c97_limits",
    "Verif.Cal.c97_noon_lost"
   ],
   "note": "doubles; the values of MSC, RS_PL, YS_PL and the texts of numbers are parameters; the defect is proved"
  },
  {
   "property": "C98",
   "status": "proved",
   "theorems": [
    "Verif.Deque.c98_history",
    "Verif.Deque.c98_fill"
   ],
   "note": "exceptions (allocation failure), swap and moves are not modelled; operations on several elements: C104"
  },
  {
   "property": "C99",
   "status": "proved",
   "theorems": [
    "Verif.Deque.c99_buffers",
    "Verif.Deque.c99_destructor",
    "Verif.Deque.c99_leak",
    "Verif.Deque.c99_clear",
    "Verif.Deque.c99_input"
   ],
   "note": "defects: destructor leaks every buffer but the first; clear releases none; input-iterator construction doubles the size"
  },
  {
   "property": "C100",
   "status": "proved",
   "theorems": [
    "Verif.Deque.c100_queue",
    "Verif.Deque.c100_stack"
   ],
   "note": "over the deque model; comparison operators and swap not modelled"
  },
  {
   "property": "C101",
   "status": "proved",
   "theorems": [
    "Verif.Rb.c101_history",
    "Verif.Rb.c101_destructor",
    "Verif.Rb.c101_copy",
    "Verif.Rb.c101_insert",
    "Verif.Rb.c101_hint",
    "Verif.Rb.c101_sorted",
    "Verif.Rb.c101_begin_hint"
   ],
   "note": "a multiset is the case V = Unit; comparison operators and swap not modelled"
  },
  {
   "property": "C102",
   "status": "proved",
   "theorems": [
    "Verif.LowSeries.c102_month",
    "Verif.LowSeries.c102_month_days",
    "Verif.LowSeries.c102_month_index",
    "Verif.LowSeries.c102_term",
    "Verif.LowSeries.c102_term_days",
    "Verif.LowSeries.c102_term_index"
   ],
   "note": "over the reals: rounding of doubles not modelled"
  },
  {
   "property": "C103",
   "status": "proved",
   "theorems": [
    "Verif.CopyAlgo.c103_copy",
    "Verif.CopyAlgo.c103_copy_pointers",
    "Verif.CopyAlgo.c103_copy_overlap",
    "Verif.CopyAlgo.c103_copy_backward",
    "Verif.CopyAlgo.c103_copy_backward_overlap",
    "Verif.CopyAlgo.c103_copy_n",
    "Verif.CopyAlgo.c103_copy_if",
    "Verif.CopyAlgo.c103_move",
    "Verif.CopyAlgo.c103_move_self",
    "Verif.CopyAlgo.c103_move_backward",
    "Verif.CopyAlgo.c103_fill",
    "Verif.CopyAlgo.c103_equal",
    "Verif.CopyAlgo.c103_lex",
    "Verif.CopyAlgo.c103_lex_bytes",
    "Verif.CopyAlgo.c103_mismatch"
   ],
   "note": "memmove and memcmp as the C standard describes them; the memset overload of fill_n and exceptions are not modelled"
  },
  {
   "property": "C104",
   "status": "proved",
   "theorems": [
    "Verif.Deque.c104_history",
    "Verif.Deque.c104_erase_undefined",
    "Verif.Deque.c104_erase_last"
   ],
   "note": "defects proved: range erasure destroys across buffers for types with a destructor; inserted ranges come from outside the deque; catch blocks not modelled"
  },
  {
   "property": "C105",
   "status": "proved",
   "theorems": [
    "Verif.RangeAlgo.c105_is_sorted",
    "Verif.RangeAlgo.c105_is_heap",
    "Verif.RangeAlgo.c105_max_element",
    "Verif.RangeAlgo.c105_min_element",
    "Verif.RangeAlgo.c105_find_first_of",
    "Verif.RangeAlgo.c105_transform",
    "Verif.RangeAlgo.c105_transform2",
    "Verif.RangeAlgo.c105_replace",
    "Verif.RangeAlgo.c105_reverse_copy",
    "Verif.RangeAlgo.c105_generate",
    "Verif.RangeAlgo.c105_shuffle",
    "Verif.RangeAlgo.c105_shuffle_gen",
    "Verif.RangeAlgo.c105_shuffle_gen_eq",
    "Verif.RangeAlgo.c105_shuffle_uniform",
    "Verif.RangeAlgo.c105_partial_sort_copy"
   ],
   "note": "values passed by reference are copies; int indices of is_heap do not overflow; the source of partial_sort_copy is outside the destination array"
  },
  {
   "property": "C106",
   "status": "proved",
   "theorems": [
    "Verif.AutoPtr.c106_history",
    "Verif.AutoPtr.c106_no_leak",
    "Verif.AutoPtr.c106_deleted_once"
   ],
   "note": "destructors of T do not touch the variables; operator* and operator-> are get()"
  },
  {
   "property": "C107",
   "status": "proved",
   "theorems": [
    "Verif.Compare.c107_pair_order",
    "Verif.Compare.c107_pair_eq",
    "Verif.Compare.c107_pair_defect",
    "Verif.Compare.c107_operators",
    "Verif.Compare.c107_seq_eq",
    "Verif.Compare.c107_list_eq",
    "Verif.Compare.c107_seq_lt",
    "Verif.Compare.c107_lex_order",
    "Verif.Compare.c107_seq_consistent"
   ],
   "note": "containers are the sequence their iterators visit"
  },
  {
   "property": "C108",
   "status": "proved",
   "theorems": [
    "Verif.Geom.c108_moon_planet",
    "Verif.Geom.c108_planet_sun",
    "Verif.Geom.c108_apparent"
   ],
   "note": "exact real arithmetic; the coordinate series are parameters (see C88, C96)"
  },
  {
   "property": "C109",
   "status": "proved",
   "theorems": [
    "Verif.TempBuffer.c109_get",
    "Verif.TempBuffer.c109_get_zero",
    "Verif.TempBuffer.c109_get_release",
    "Verif.TempBuffer.c109_construct",
    "Verif.TempBuffer.c109_life",
    "Verif.TempBuffer.c109_empty_defect",
    "Verif.TempBuffer.c109_throw_defect"
   ],
   "note": "the memory manager is an arbitrary function that gives out no block in use; an exception of `distance` is not modelled; the two defects are outside the statement (empty range, throwing copy)"
  },
  {
   "property": "C110",
   "status": "proved",
   "theorems": [
    "Verif.Deque.c110_history",
    "Verif.Deque.c110_move_leak",
    "Verif.Deque.c110_moved_assign"
   ],
   "note": "every deque has memory of its own (the allocator's blocks do not overlap); uses of a deque moved from other than those listed are outside, c110_moved_assign shows why"
  },
  {
   "property": "C111",
   "status": "proved",
   "theorems": [
    "Verif.SkyText.c111_text"
   ],
   "note": "binary64; the values of MSC are parameters (C88 proves what they are); the digits are those of the proved Grisu2 model; ranges as in C29, C34, C35"
  },
  {
   "property": "C112",
   "status": "proved",
   "theorems": [
    "Verif.HashFun.c112_one_byte",
    "Verif.HashFun.c112_integers",
    "Verif.HashFun.c112_equal",
    "Verif.HashFun.c112_differ",
    "Verif.HashFun.c112_long_double_defect"
   ],
   "note": "64-bit little-endian machine; long double as its 16 bytes"
  },
  {
   "property": "C113",
   "status": "proved",
   "theorems": [
    "Verif.Uninit.c113_copy",
    "Verif.Uninit.c113_fill",
    "Verif.Uninit.c113_move",
    "Verif.Uninit.c113_fill_throw",
    "Verif.Uninit.c113_move_throw",
    "Verif.Uninit.c113_copy_throw_defect",
    "Verif.Uninit.c113_vector",
    "Verif.Uninit.c113_vector_defect"
   ],
   "note": "ranges are contiguous memory; the defects are outside the statement; that a throw never reaches the caller is proved as the code does it"
  },
  {
   "property": "C114",
   "status": "proved",
   "theorems": [
    "Verif.Iterators.c114_distance",
    "Verif.Iterators.c114_distance_back",
    "Verif.Iterators.c114_advance",
    "Verif.Iterators.c114_advance_input_back",
    "Verif.Iterators.c114_reverse",
    "Verif.Iterators.c114_read_back"
   ],
   "note": "differences are mathematical integers; the containers' own ++ and -- are the subject of C45 and C98"
  },
  {
   "property": "C115",
   "status": "proved",
   "theorems": [
    "Verif.Geom.c115_limb"
   ],
   "note": "exact arithmetic; two rounds of the iteration, as in the code: the direction is that at the first approximation q"
  },
  {
   "property": "C116",
   "status": "proved",
   "theorems": [
    "Verif.Rb.c116_history",
    "Verif.Rb.c116_assign",
    "Verif.Rb.c116_self_move"
   ],
   "note": "allocation always succeeds, comparators without state; a map moved from must not be read, copied or inserted into (it has no header); move assignment of a map to itself, outside the programs of c116_history, is the defect"
  }
 ]
}