C01 | proved | c01_toJD_next c01_toJD_anchor c01_before_range_wrong c01_overflow | Proved for every civil date from -4716-03-01 to the end of year 4900000 (IEEE doubles, 32-bit int overflow modelled). Missing / false outside: -4716-01-01..02-29 are miscounted (witness theorem), years near 5.8 million overflow int (witness theorem).
C02 | proved | c02_date_roundtrip c02_noon_roundtrip | Every civil date with -4700 <= year <= 4900000 and every whole second of the day; noon on the whole range.
C03 | proved | c03_text_roundtrip | Five-column years -4700..99999, every whole second.
C04 | proved | c04_setFromJD_valid | Every jd in [4096, 1.79e9]; date and time denote exactly the double jd+0.5 (one rounding).
C05 | proved | c05_toJD_strictMono | All pairs of civil dates in range, whole seconds.
C06 | partial | c06_jd2str_nearest_partial c06_prints_24_00_00 | The text is the nearest second of the containing day; but in the last half second it prints 24:00:00 (witness theorem): the property as stated is false of the code.
C07 | partial | c07_timeStr_nearest_partial c07_timeStr_any c07_prints_24_00_00 | Same as C06.
C08 | proved | c08_sheet_days c08_sheet_rows | Gregorian half of yueLiCalc, every month of every year in range, October 1582 included.
C09 | proved | c09_weekday_step c09_weekday_anchor | Weekday written into the day record by yueLiCalc.
C10 | proved | c10_hijri_next c10_hijri_epoch | Induction step plus anchor: getHuiLi agrees with the tabular calendar on every integer day, |n| <= 2e9, in IEEE doubles.
C11 | proved | c11_dayName_cycle c11_dayName_period c11_dayName_anchor c11_below_undefined | d0 from -8999994 on; one day earlier is an out-of-bounds read (witness).
C12 | proved | c12_baZi | The solar-longitude index k and the local true solar time are inputs (arbitrary); the pillar logic is the code's, in IEEE doubles and 32-bit ints. Day and double-hour boundaries are exact up to 1e-7 day (double rounding of jd+13/24).
C26 | proved | c26_toText | All widths and signs; reciprocal multiplication blocks with 32/64-bit wrap-around; buffer effect given exactly.
C27 | partial | c27_roundtrip_partial | Holds after every history without an out_of_range report; after an overflowing call errno stays ERANGE and the round trip throws (c28_stale_errno).
C28 | partial | c28_stoi_partial c28_in_int_partial c28_truncates c28_stale_errno | Exact behaviour proved for every numeral and errno state; the property itself is false of the code (two witnesses).
C29 | partial | c29_double_partial c29_fixed_partial c29_carry_defect | proved for every double 1e-6 <= x < 1e21 (digits from the proved Grisu2 model, no oracle) and precision >= 1, outside the carry defect (to_str(19.96,1) = 110.0), which is characterised exactly; the fixed-precision promise is false outside this range, so the full property cannot be proved of this code
C30 | proved | c30_to_str_pad c30_out_of_range_undefined | Exactly when the padding is defined, and what it is.
C31 | proved | c31_string_replace c31_replaced_unique c31_char c31_empty_pattern_diverges | Non-empty patterns; the empty pattern diverges (proved).
C32 | proved | c32_split_join c32_join_split c32_two_char_throws | One-character separators (the only ones used); a longer separator can throw (witness).
C33 | proved | c33_fill_str | 
C13 | proved | c13_getNH c13_empty_iff c13_table_split | Whole table transcribed by tools/gen_era.py; every int year; errno clean on entry (see C28 otherwise). Two holes found in the table: -1989..-1987 and 177.
C14 | proved | c15_festivals | on every day of every month sheet the weekday festivals are exactly those of the n-th (or last) such weekday; table strings checked against the record table
C15 | proved | c15_festivals | exactly the fixed-date festivals in force; also the day-off flag (relative to its uninitialised previous value)
C16 | partial | c16_marks_partial c16_laba_missing | everything but Laba, which the code never marks (proved)
C17 | proved | c17_marks | dog days by counting Geng days, plum rains, nine nines
C18 | proved | c18_leap c18_leap_first c18_twelve_or_thirteen c18_name c18_name_set c18_name_historic c18_name_rule c18_ancient_name_set | for all terms and new moons with months of 29/30 days; month names are the usual ones outside the four historical renaming intervals and the historical ones inside
C19 | proved | c19_month c20_day | for every day of the year tables, in double arithmetic
C20 | proved | c20_term c20_pillarMonth c20_zodiac c20_yearLichun c20_yearSpring c20_day | every field of the lunar record for every day between two solstices, years -8000..12000
C21 | proved | c21_history | for every history of month sheets and year texts, given a sane solar-term calculator
C22 | proved | c22_jieya c22_tables | decompression of every string over the alphabet; the two tables have exactly 16598 and 7567 digits
C23 | proved | c23_defined c23_mean c23_corrected c23_coarse c23_modern | double arithmetic throughout; the four series are arbitrary functions with results in int range; the day formula is stated with the exact decimal constants
C24 | proved | c24_steps | every row of both tables, including the moved day of 103 BC
C25 | proved | c25_row c25_ext c25_row_joins c25_continuous c25_accuracy | dt_calc exact-arithmetic and double semantics on the real table; never out of bounds for a real year (NaN, not modelled, would run off); cubic of the row of the year, 1e-8 s rounding bound, row joins differ by up to 4.4 s, continuous at 2028 and 2128
C46 | partial | c46_push_heap c46_make_heap c46_pop_heap c46_sort_heap c46_partial_sort c46_sort_partial c46_sort_defect | heap algorithms and partial_sort proved on every range; sort is proved to stay in bounds and give a sorted range always, a permutation up to 128 elements; beyond 128 it loses elements (c46_sort_defect), the exact outcome being the running maximum given in c46_sort_partial
C47 | proved | c47_lower_bound c47_upper_bound c47_binary_search c47_equal_range c47_equal_range_forward c47_binary_search_comp_defect | for every strict weak order; equal_range returns the end when nothing matches (proved as such); binary_search with a comparison object is defective (counterexample proved)
C48 | proved | c48_union c48_intersection c48_difference c48_symmetric_difference c48_merge c48_includes | every pair of sorted sequences and every strict weak order; also which copies are taken
C44 | proved | c44_step c44_history c44_returned c44_capacity c44_self_push_defect c44_emplace_alias_defect | every history on a pair of vectors of any element type, including which exceptions; arguments that alias an element are covered for trivially copyable types (for others push_back(v[i]) at full capacity is proved defective, as is emplace with an aliasing argument); allocation failure and throwing element copies are not modelled
C45 | proved | c45_history c45_destructor c45_copy c45_insert c45_hint c45_erase c45_iterators c45_logarithmic c45_at_defect c45_duplicate c45_moved | pointer-level model of rb_tree and map (rotations, rebalancing, unlinking, hints, iterators, erase_since, copy_from); exceptions, max_size and swap/move assignment are not modelled; at() is proved to deviate from the standard
C34 | proved | c34_rad2strE c34_rad2str2 c34_limits | binary64 arithmetic, every angle up to 17 rad, 1-6 decimals; the text and its value against the real pi; limits (0 decimals, >= 1000 degrees) stated
C35 | partial | c35_double_partial c35_m2fm_partial c35_whole_minutes c35_carry_defect c35_tiny_defect | binary64 arithmetic, every |v| < 2147483640 and 1-27 decimals, the digits of the seconds come from the proved Grisu2 model; the property itself fails in the code: 59.996 prints as 150.00 seconds, seconds below 1e-6 print with an exponent
C36 | proved | c36_mrad c36_rrad c36_true_turns c36_mrad_full_circle c36_mrad_real c36_rrad_real c36_mrad_unique c36_rrad_unique | in doubles for every finite argument, and in exact arithmetic
C37 | proved | c37_xyz_llr_xyz c37_llr_xyz_llr c37_range c37_h2g | exact real arithmetic with the mathematical functions in place of libm; the rounding of doubles is not modelled
C38 | proved | c38_rotation c38_inverse c38_horizontal c38_angle c38_angle_turns c38_angle_symm | exact real arithmetic; j1_j2's small-angle shortcut is covered only by the symmetry and whole-turn theorems
C39 | proved | c39_lineEll c39_lineEar2 | exact real arithmetic
C40 | partial | c40_lineOvl c40_circles c40_ellipse_partial | exact real arithmetic; lineOvl and circles in full; for a true ellipse cirOvl makes one correction only, so its points are on the circle exactly but on the ellipse up to 1/ba^2-1
C41 | proved | c41_lineT c41_marker_ambiguous | exact real arithmetic; the mark 0 is also a possible contact time (shown)
C52 | proved | c52_bessel_round_trip | exact real arithmetic
C53 | proved | c53_moonIll | double arithmetic; the library cosine is only assumed to stay in [-1,1]
C42 | partial | c42_classification c42_history c42_contacts_partial | exact real arithmetic, the ephemeris is a parameter; classification, magnitude and history in full; contact times only for uniform motion past a shadow of constant size (the program makes one refinement step, so for the true motion they are approximations)
C43 | proved | c43_quick_types c43_quick_meaning c43_quick_central c43_quick_mixed c43_closest c43_feature_types c43_feature_noncentral c43_feature_central c43_labels c43_mixed_labels c43_search c43_certain c43_magnitude | exact real arithmetic, the ephemeris is a parameter; the wrong descriptions of H and A1 are shown by c43_mixed_labels
C54 | proved | c54_in_bounds c54_nodes c54_polynomial c54_history c54_numbering c54_continuous | exact real arithmetic, the ephemeris is a parameter
C49 | proved | c49_table c49_first c49_bounds c49_history | the ephemeris is a parameter; the dependence on earlier calls is shown by c49_history and its example
C55 | partial | c55_getH c55_mod2 c55_uniform c55_remarks | exact real arithmetic, the ephemeris is a parameter; St only for uniform motion with constant declination (for the true motion of the built-in sun see C82)
C51 | proved | c51_planets c51_counts c51_moon c51_moon_counts c51_pluto c51_prece | exact real arithmetic; the coefficients are parameters, the lengths and index entries of the tables are transcribed
C56 | proved | c56_equatorial c56_equatorial_rigid c56_ecliptic c56_epoch | exact real arithmetic; for the ecliptic conversion also the intermediate direction and the result must not be poles
C57 | proved | c57_parallax c57_site | exact real arithmetic
C58 | proved | c58_nutation c58_nutation2 c58_filter_defect | exact real arithmetic, the coefficients are parameters; that the filter is wrong is c58_filter_defect
C50 | proved | c50_names c50_codec c50_search c50_absent c50_menu_general c50_menu c50_range c50_inputs c50_inner c50_defect | terminal input and output are not modelled: what the user enters is an argument; isalnum of bytes over 127 is taken to be 0
C59 | proved | c59_read_back c59_out_of_bounds | the memory behind kPow10 (entries 10 to 16) is assumed readable with any content; that the code reads it at all is the defect c59_out_of_bounds
C60 | proved | c21_sheet c21_sheet_historic | c21_sheet: days outside -721..-104 for every calculator within the stated distance of the mean motion (months of 29 or 30 days, one month in fifteen may have 28); c21_sheet_historic: all days from 721 BC on, over the reform of 104 BC, with the pre-reform month names
C61 | proved | c60_mean_era | no hypothesis on the calculator: the double arithmetic of SSQ::calc is followed to the day; specification of the mean motion in MeanEraSpec
C62 | proved | c62_phases c62_terms | binary64 arithmetic of the search; MS_aLon, S_aLon, so_accurate and qi_accurate are parameters
C63 | proved | c63_year_text c63_year_text_historic c63_mean_era | binary64 arithmetic, byte lengths of the UTF-8 texts; the ephemeris so_accurate, qi_accurate is a parameter; c63_mean_era needs no hypothesis on the calculator
C64 | proved | c64_reverse c64_rotate | reverse: bidirectional and random access; rotate: forward, bidirectional, random access (cycles)
C65 | proved | c65_next_permutation c65_prev_permutation | any strict weak order
C66 | proved | c66_inplace_merge | buffer of any size and content, or none; both overload families
C67 | partial | c67_nth_element_partial c67_nth_element_defect c67_nth_element_comp_diverges | ends and permutes the range (operator<), sorted up to three elements; the selection itself is false of the code and so is termination with a comparison object (witness theorems)
C68 | proved | c68_remove c68_remove_if c68_remove_copy_if c68_unique c68_unique_copy c68_adjacent_find c68_partition c68_partition_copy c68_remove_alias_defect | any predicate; remove with a constant or a reference outside the range
C69 | proved | c69_search c69_find_end_forward c69_find_end_bidirectional c69_search_n | any binary predicate
C70 | proved | c70_is_permutation | any equivalence relation; the int counters are modelled as unbounded
C71 | proved | c71_classification c71_no_angles c71_no_sunrise c71_instant c71_depth c71_visible c71_uniform c71_angles c71_sunrise c71_history c71_polar_times_lost c71_polar_example | exact real arithmetic; the ephemeris (secXY, deltaT, parallactic angle, rough sun) is a parameter
C72 | proved | c72_body c72_line c72_panel c72_time c72_axis c72_shadow c72_history | exact real arithmetic; the ephemeris (m_coord, e_coord, nutation2, aberration, pGST, dt_T, moonIll) is a parameter; the text output MSC::toStr is not modelled here
C73 | proved | c73_refraction c73_lifts c73_lowers_zenith c73_jump | exact real arithmetic
C74 | proved | c74_sun c74_terms | exact real arithmetic with the built-in Earth and nutation series (generated from eph_data.h)
C75 | proved | c75_moon c75_months | exact real arithmetic with the built-in Earth and moon series; the true equation is MS_aLon with all terms
C76 | proved | c76_fast c76_day | exact real arithmetic with the built-in series; dt_T is a parameter bounded below by minus a century
C77 | proved | c77_fast c77_day | exact real arithmetic with the built-in series; dt_T is a parameter bounded below by minus a century
C78 | proved | c78_instants c78_days c78_builtin | exact real arithmetic with the built-in series
C79 | proved | c79_modern | the calculator ssqCalc in the rounding model with the two fine series as parameters; assumed of them: each value gives the day of the exact series (HighTime, built-in tables) at an angle within 1e-6 rad; met by the exact series (exactSeries_fine)
C80 | proved | c80_equation_of_time c80_precise c80_agree c80_rate c80_true_time | exact real arithmetic with the built-in series and the built-in slow-down of the Earth's rotation
C81 | proved | c81_history c81_prefix c81_all_freed c81_equal c81_returned c81_defect_moved_from c81_defect_remove_own_element c81_defect_splice_range_within | pointer-level model; exceptions of element constructors and the length error are not modelled
C82 | proved | c82_sunrise c82_twilight c82_noon c82_no_remark c82_moonrise c82_moon_culmination c82_moon_start | exact real arithmetic; the sun with the built-in series and slow-down of the Earth's rotation, the moon for any ephemeris of bounded speed
C83 | proved | c83_penumbra c83_umbra c83_centre c83_table c83_limb c83_contact | exact real arithmetic, the ephemeris a parameter; three rounds of the iteration, so the direction is square to the motion at the last ground estimate, not at the final place
C84 | proved | c84_cones c84_centre c84_limit c84_report | exact real arithmetic, the ephemeris a parameter
C85 | proved | c85_history c85_drain | the underlying vector is the sequence of its elements (C44 is its own property); self-moves excluded
C86 | proved | c86_accumulate c86_sum c86_inner_product c86_iota c86_adjacent_difference c86_partial_sum c86_empty c86_inverse | output starting inside the range after its first element is excluded (it overwrites what is still to be read)
C87 | proved | c87_history c87_iterate c87_copy_iterates_source c87_long_list | two theorems state defects: a copy iterates over its source, a list longer than N is written past the elements
C88 | proved | c88_umbra c88_penumbra c88_total c88_greatest c88_grazing_zero contact_demo | exact real arithmetic, the ephemeris a parameter; the last theorem is a defect: for a grazing eclipse the second round may return the marker 0 as the time of contact
C89 | proved | c89_history c89_of_range c89_erase_range c89_bucket_count c89_bucket_prime primeList_prime c89_moved_from c89_rebuild_leaks c89_emplace_leaks | the float comparisons of the load factor are arbitrary functions; exceptions not modelled; self-moves excluded; the last three theorems are defects: a moved-from table divides by zero, a rebuild never frees the old nodes, emplace of a present key leaks its node
C90 | proved | c90_history c90_of_range c90_erase_key_undefined | as C89; the last theorem states the defect of erase(key), which the history therefore leaves out
C91 | proved | c91_search c91_none_missed c91_first c91_same_moon c91_new_moon | exact real arithmetic; the series for latitude and distance, and the full computation, are parameters
C92 | proved | moonMinR_near earthMinR_near daJu_near xingLiu_near Dip.lowest quadratic_exact moonMinR_walk earthMinR_walk daJu_walk | exact real arithmetic; the distance, elongation and right ascension are parameters with the bounds stated
C93 | proved | moonNode_near moonNode_walk Pass.rounds xingHR_near xingHY_near | exact real arithmetic; latitude, longitudes and right ascensions are parameters with the bounds stated
C94 | proved | c94_session c94_fresh c94_there_and_back c94_list_moves c94_no_result c94_names | exact real arithmetic; ephemeris and RS_GS::feature are parameters; the defects are proved
C95 | proved | c95_panel c95_eq_table c95_sun_row c95_sun_table c95_whole_year c95_rise_column_short | doubles; the instants computed are parameters; the defect of the column of risings is proved
C96 | proved | c96_planet c96_moon c96_light c96_unset | exact real arithmetic; the series and the texts of numbers are parameters; the defect is proved
C97 | proved | c97_report c97_timetable c97_limits c97_noon_lost | doubles; the values of MSC, RS_PL, YS_PL and the texts of numbers are parameters; the defect is proved
C98 | proved | c98_history c98_fill | exceptions (allocation failure), swap and moves are not modelled; operations on several elements: C104
C99 | proved | c99_buffers c99_destructor c99_leak c99_clear c99_input | defects: destructor leaks every buffer but the first; clear releases none; input-iterator construction doubles the size
C100 | proved | c100_queue c100_stack | over the deque model; comparison operators and swap not modelled
C101 | proved | c101_history c101_destructor c101_copy c101_insert c101_hint c101_sorted c101_begin_hint | a multiset is the case V = Unit; comparison operators and swap not modelled
C102 | proved | c102_month c102_month_days c102_month_index c102_term c102_term_days c102_term_index | over the reals: rounding of doubles not modelled
C103 | proved | c103_copy c103_copy_pointers c103_copy_overlap c103_copy_backward c103_copy_backward_overlap c103_copy_n c103_copy_if c103_move c103_move_self c103_move_backward c103_fill c103_equal c103_lex c103_lex_bytes c103_mismatch | memmove and memcmp as the C standard describes them; the memset overload of fill_n and exceptions are not modelled
C104 | proved | c104_history c104_erase_undefined c104_erase_last | defects proved: range erasure destroys across buffers for types with a destructor; inserted ranges come from outside the deque; catch blocks not modelled
C105 | proved | c105_is_sorted c105_is_heap c105_max_element c105_min_element c105_find_first_of c105_transform c105_transform2 c105_replace c105_reverse_copy c105_generate c105_shuffle c105_shuffle_gen c105_shuffle_gen_eq c105_shuffle_uniform c105_partial_sort_copy | values passed by reference are copies; int indices of is_heap do not overflow; the source of partial_sort_copy is outside the destination array
C106 | proved | c106_history c106_no_leak c106_deleted_once | destructors of T do not touch the variables; operator* and operator-> are get()
C107 | proved | c107_pair_order c107_pair_eq c107_pair_defect c107_operators c107_seq_eq c107_list_eq c107_seq_lt c107_lex_order c107_seq_consistent | containers are the sequence their iterators visit
C108 | proved | c108_moon_planet c108_planet_sun c108_apparent | exact real arithmetic; the coordinate series are parameters (see C88, C96)
C109 | proved | c109_get c109_get_zero c109_get_release c109_construct c109_life c109_empty_defect c109_throw_defect | the memory manager is an arbitrary function that gives out no block in use; an exception of `distance` is not modelled; the two defects are outside the statement (empty range, throwing copy)
C110 | proved | c110_history c110_move_leak c110_moved_assign | every deque has memory of its own (the allocator's blocks do not overlap); uses of a deque moved from other than those listed are outside, c110_moved_assign shows why
C111 | proved | c111_text | binary64; the values of MSC are parameters (C88 proves what they are); the digits are those of the proved Grisu2 model; ranges as in C29, C34, C35
C112 | proved | c112_one_byte c112_integers c112_equal c112_differ c112_long_double_defect | 64-bit little-endian machine; long double as its 16 bytes
C113 | proved | c113_copy c113_fill c113_move c113_fill_throw c113_move_throw c113_copy_throw_defect c113_vector c113_vector_defect | ranges are contiguous memory; the defects are outside the statement; that a throw never reaches the caller is proved as the code does it
C114 | proved | c114_distance c114_distance_back c114_advance c114_advance_input_back c114_reverse c114_read_back | differences are mathematical integers; the containers' own ++ and -- are the subject of C45 and C98
C115 | proved | c115_limb | exact arithmetic; two rounds of the iteration, as in the code: the direction is that at the first approximation q
C116 | proved | c116_history c116_assign c116_self_move | allocation always succeeds, comparators without state; a map moved from must not be read, copied or inserted into (it has no header); move assignment of a map to itself, outside the programs of c116_history, is the defect
