{"id": "C01", "title": "Civil date to Julian day is day-exact", "statement": "toJD of a civil date at 12:00:00 is exactly the integer Julian day number: it is 2451545 for 2000-01-01 and it increases by exactly 1 from each civil date to the next one, including month ends, leap days under the Julian rule up to 1582-10-04 and the Gregorian rule from 1582-10-15, and the jump from 1582-10-04 to 1582-10-15.", "quantifier": "every civil date with -4712 <= year <= 4900000 (the years whose Julian day is non-negative; the model also settles what happens outside)", "why_tests_cant": "infinitely many (millions of) dates, computed in floating point with truncations; tests only sample boundaries", "anchors": ["mylib/tool.cpp:toJD", "mylib/tool.h:Date"]}
{"id": "C02", "title": "Civil date round trip", "statement": "setFromJD(toJD(d)) returns the same year, month and day as d.", "quantifier": "every civil date with -4700 <= year <= 4900000 and every whole second of the day, and every noon from -4712", "why_tests_cant": "same reason: every date and every second of it", "anchors": ["mylib/tool.cpp:toJD", "mylib/tool.cpp:setFromJD"]}
{"id": "C03", "title": "Date-time text round trip", "statement": "JD2str(toJD(d)) prints exactly the year, month, day, hour, minute and second of d when the seconds field is a whole number.", "quantifier": "every civil date in range (five-character year), every whole second of the day", "why_tests_cant": "86400 x millions of instants, each with double rounding in both directions", "anchors": ["mylib/tool.cpp:JD2str", "mylib/tool.cpp:DD2str", "mylib/tool.cpp:toJD", "mylib/tool.cpp:setFromJD"]}
{"id": "C04", "title": "Julian day to civil date is always a valid date and time", "statement": "setFromJD(jd) is always an existing civil date (never 1582-10-05..14, never day 0 or 32) with 0<=h<24, 0<=m<60, 0<=s<60, and date and time together denote exactly the instant jd.", "quantifier": "every double jd with 4096 <= jd <= 1.79e9", "why_tests_cant": "domain is all doubles in the interval", "anchors": ["mylib/tool.cpp:setFromJD"]}
{"id": "C05", "title": "Julian day is strictly monotone in calendar time", "statement": "If one date-time is earlier than another by at least one second then its toJD is strictly smaller.", "quantifier": "every pair of date-times in range with whole seconds", "why_tests_cant": "pairs of instants; rounding could break order at any of them", "anchors": ["mylib/tool.cpp:toJD"]}
{"id": "C06", "title": "Printed clock times exist", "statement": "DD2str/JD2str print the instant rounded to the nearest second as an existing clock time of an existing day (never 24:00:00).", "quantifier": "every double jd in range", "why_tests_cant": "a half-second window before each midnight; the code violates it there (no day carry)", "anchors": ["mylib/tool.cpp:DD2str", "mylib/tool.cpp:JD2str"]}
{"id": "C07", "title": "timeStr prints the nearest second of the day", "statement": "timeStr(jd) prints hh:mm:ss of the instant rounded to the nearest second, with hh<24.", "quantifier": "every double jd in range", "why_tests_cant": "all doubles; the code prints 24:00:00 in the last half second of a day", "anchors": ["mylib/tool.cpp:timeStr"]}
{"id": "C08", "title": "Month calendar lists exactly the civil days of the month", "statement": "yueLiCalc(y,m) reports dn equal to the number of civil days of the month (21 for 1582-10) and its i-th day entry carries the i-th civil day of that month, its noon Julian day and its weekday; week rows and row count are those of a Sunday-first calendar sheet.", "quantifier": "every year -4715..4900000 and month 1..12", "why_tests_cant": "all months of all years", "anchors": ["lunar/lunar.cpp:yueLiCalc", "lunar/lunar_ob.h:OB_DAY"]}
{"id": "C09", "title": "Weekday cycle", "statement": "The weekday reported for consecutive days advances by one modulo 7 with no break at any month, year or the 1582 reform, anchored to 2000-01-01 being a Saturday.", "quantifier": "every day in range", "why_tests_cant": "unbounded set of days", "anchors": ["lunar/lunar.cpp:yueLiCalc"]}
{"id": "C10", "title": "Hijri date follows the tabular Islamic calendar", "statement": "getHuiLi gives the civil tabular Islamic date: 30-year cycle with leap years 2,5,7,10,13,16,18,21,24,26,29, months alternately 30/29 days, month 12 having 30 days in leap years; next day gives the next Hijri date.", "quantifier": "every integer day number with |d0| <= 2e9", "why_tests_cant": "floating-point quotients with fitted offsets must be right on every day of the cycle and for every cycle", "anchors": ["lunar/lunar_ob.cpp:OBA::getHuiLi"]}
{"id": "C11", "title": "Sexagenary day cycle", "statement": "The day name in stems and branches advances through the 60-cycle one step per day, 2000-01-07 being JiaZi; never indexes outside the name tables.", "quantifier": "every day number d0 >= -8999994", "why_tests_cant": "unbounded days; below the bound the remainder is negative and the access is out of bounds", "anchors": ["lunar/lunar.cpp:yueLiCalc", "lunar/lunar_ob.cpp:OBB::mingLiBaZi"]}
{"id": "C12", "title": "Eight-character hour and month pillars obey the stem rules", "statement": "mingLiBaZi: the hour pillar is that of the double-hour of the local true solar time counted from 23:00 and obeys the five-rats rule relative to the day stem; the month pillar obeys the five-tigers rule relative to the year stem; the 13-entry hour table lists consecutive pillars with exactly one highlighted entry, equal to bz_js.", "quantifier": "every instant and longitude for which the day number is in range", "why_tests_cant": "all instants; rule is modular arithmetic over all values", "anchors": ["lunar/lunar_ob.cpp:OBB::mingLiBaZi"]}
{"id": "C13", "title": "Era names cover a year exactly when an era is in force", "statement": "getNH(y) returns, in table order, exactly one entry per era interval containing y with year count y-start+1+offset, and is non-empty exactly for the years -2069..11947 except -1989..-1987 and 177, which the table does not cover.", "quantifier": "every int year", "why_tests_cant": "all years; the code has gaps in the table", "anchors": ["lunar/lunar_ob.cpp:OBB::getNH", "lunar/lunar_ob.cpp:OBB::init"]}
{"id": "C14", "title": "Weekly festivals fall on the n-th weekday of the month", "statement": "getDayName attaches a 'n-th weekday' festival to a day iff that day is the n-th such weekday of its month (n=5 meaning the last one).", "quantifier": "every month of every year and every day of it", "why_tests_cant": "all combinations of month length and first weekday", "anchors": ["lunar/lunar_ob.cpp:OBA::getDayName", "lunar/lunar_ob.cpp:OBA::wFtv"]}
{"id": "C15", "title": "Fixed-date festivals and their year limits", "statement": "getDayName lists a fixed-date festival exactly on its month and day, only in years inside its stated range (or from 1850 when none is stated), in the class given by its type mark.", "quantifier": "every year, month, day", "why_tests_cant": "all years and days", "anchors": ["lunar/lunar_ob.cpp:OBA::getDayName", "lunar/lunar_ob.cpp:OBA::init"]}
{"id": "C16", "title": "Lunar festivals", "statement": "getDayName2 marks Spring Festival exactly on day 1 of non-leap month 1, Dragon Boat on 5/5, Mid-Autumn on 8/15, Laba on 12/8, and New Year's Eve exactly on the last day of the last month before month 1.", "quantifier": "every lunar date (month name, day, leap flag, month length)", "why_tests_cant": "all lunar dates; the code never produces Laba", "anchors": ["lunar/lunar_ob.cpp:OBB::getDayName2"]}
{"id": "C17", "title": "Dog days, plum rains and counting of nines", "statement": "Chu/Zhong/Mo fu are marked on the third and fourth Geng day counted from the summer solstice and the first Geng day counted from Liqiu; the nine nines cover exactly the 81 days from the winter solstice, each with the right number and day.", "quantifier": "every placement of solstices and every day", "why_tests_cant": "all alignments of the 10-day cycle with the solstice", "anchors": ["lunar/lunar_ob.cpp:OBB::getDayName2"]}
{"id": "C18", "title": "Leap month rule", "statement": "calcY: if 13 new-moon months fit between two winter solstices, the leap month is the first month after the solstice month that contains no major solar term, it takes the number of its predecessor, and otherwise there is no leap month; month numbering is consecutive and the month containing the solstice is month 11.", "quantifier": "every assignment of solar-term days and new-moon days consistent with the astronomy", "why_tests_cant": "all years, past and future; the data come from ephemerides", "anchors": ["lunar/lunar_ssq.cpp:SSQ::calcY"]}
{"id": "C19", "title": "Every day gets exactly one lunar month and a day number 1..30", "statement": "yueLiCalc: for every day the selected lunar month is the one with first day <= d < next first day, and the lunar day index is within the 30-entry name table.", "quantifier": "every day and every consistent new-moon table", "why_tests_cant": "all days and tables; estimate uses a floating quotient with one correction step", "anchors": ["lunar/lunar.cpp:yueLiCalc"]}
{"id": "C20", "title": "Solar-term of the day and zodiac sign", "statement": "yueLiCalc: Ljq is the name of the solar term falling on that day and empty on other days; month pillar and zodiac sign change exactly on the corresponding term.", "quantifier": "every day and every consistent solar-term table", "why_tests_cant": "same", "anchors": ["lunar/lunar.cpp:yueLiCalc"]}
{"id": "C21", "title": "Calendar results do not depend on earlier calls", "statement": "yueLiCalc's lunar data for a day are the same whatever months were requested before (the cached year tables never leak into the answer).", "quantifier": "every history of calls", "why_tests_cant": "all call histories", "anchors": ["lunar/lunar.cpp:yueLiCalc", "lunar/lunar_ssq.cpp:SSQ::calcY"]}
{"id": "C22", "title": "Correction tables decompress to the advertised size and alphabet", "statement": "The decompressed new-moon and solar-term correction tables contain only '0','1','2' and are long enough for every index used.", "quantifier": "every index computed from any date in the table's era", "why_tests_cant": "16598+7567 entries and every double date", "anchors": ["lunar/lunar_ssq.cpp:SSQ::jieya", "lunar/lunar_ssq.cpp:SSQ::calc"]}
{"id": "C23", "title": "Term/new-moon lookup is total and in bounds", "statement": "SSQ::calc never reads outside its parameter tables or correction strings, and in the mean-motion era returns the day of the table's linear formula.", "quantifier": "every finite double date", "why_tests_cant": "all doubles", "anchors": ["lunar/lunar_ssq.cpp:SSQ::calc", "lunar/lunar_ssq.cpp:SSQ::suoKB", "lunar/lunar_ssq.cpp:SSQ::qiKB"]}
{"id": "C24", "title": "Mean-motion months have 29 or 30 days", "statement": "Within one calendar reform era of the mean-motion table, successive new-moon days differ by 29 or 30 and successive solar terms by 15 or 16.", "quantifier": "every lunation in each era", "why_tests_cant": "thousands of lunations in floating point", "anchors": ["lunar/lunar_ssq.cpp:SSQ::calc"]}
{"id": "C25", "title": "TD-UT is total, in bounds and continuous where tabulated extrapolation joins", "statement": "dt_calc never reads outside its table, uses the row containing the year, and joins the long-term extrapolation continuously.", "quantifier": "every finite year", "why_tests_cant": "all reals", "anchors": ["eph/eph0.cpp:dt_calc", "eph/eph0.cpp:dt_ext"]}
{"id": "C26", "title": "Integer formatting is exact", "statement": "to_str/to_text_from_integer writes the ordinary decimal representation (no leading zeros, '-' for negatives) and never more than 21 bytes.", "quantifier": "every 8/16/32/64-bit signed or unsigned integer", "why_tests_cant": "2^64 inputs, with wrap-around multiply tricks", "anchors": ["mylib/mystl/itoa.h:to_text_from_integer", "mylib/mystl/my_string.h:to_str"]}
{"id": "C27", "title": "Integer parse round trip", "statement": "my_stoi(to_str(n)) = n.", "quantifier": "every int n and every earlier history of conversions", "why_tests_cant": "2^32 inputs and hidden errno state", "anchors": ["mylib/mystl/my_string.h:my_stoi", "mylib/mystl/my_string.h:to_str"]}
{"id": "C28", "title": "my_stoi reports out-of-range and only out-of-range input", "statement": "my_stoi throws out_of_range exactly when the number does not fit in an int, and its verdict does not depend on earlier calls.", "quantifier": "every string and every history of earlier calls", "why_tests_cant": "errno history; the code violates both halves", "anchors": ["mylib/mystl/my_string.h:my_stoi"]}
{"id": "C29", "title": "Fixed-precision decimal formatting rounds correctly", "statement": "to_str(x,p) is the decimal with p fraction digits nearest to x.", "quantifier": "every double x and precision p", "why_tests_cant": "all doubles; carry propagation bug affects a thin set", "anchors": ["mylib/mystl/dtoa.h:PrettifyRoundUP", "mylib/mystl/dtoa.h:dtoa_milo2"]}
{"id": "C30", "title": "Padding and buffer bounds of to_str", "statement": "to_str(x,p,len,align) returns a string of length max(len,natural length) padded on the requested side and never writes outside its 32-byte and 64-byte buffers.", "quantifier": "every integer value and 0 <= len <= 63", "why_tests_cant": "all lengths", "anchors": ["mylib/mystl/my_string.h:to_str"]}
{"id": "C31", "title": "string_replace replaces every occurrence", "statement": "string_replace(s,a,b) equals splitting s at non-overlapping left-to-right occurrences of a and joining with b, and terminates for non-empty a.", "quantifier": "all strings", "why_tests_cant": "all strings; loops forever on empty pattern", "anchors": ["mylib/tool.cpp:string_replace"]}
{"id": "C32", "title": "split and join are inverse", "statement": "Joining split(s,c) with the one-character separator c gives s back, and no field contains c.", "quantifier": "all strings and separators", "why_tests_cant": "all strings", "anchors": ["lunar/lunar_ob.cpp:split"]}
{"id": "C33", "title": "fill_str pads to the width", "statement": "fill_str(s,n,c) with one-character c has length max(n,|s|), ends with s and is otherwise c.", "quantifier": "all strings and widths", "why_tests_cant": "all strings", "anchors": ["mylib/tool.cpp:fill_str"]}
{"id": "C34", "title": "Angle formatting carries correctly", "statement": "rad2strE/rad2str2 print degree/minute/second fields with minutes and seconds below 60 that denote the angle rounded to the printed precision.", "quantifier": "every finite angle and precision 1..5", "why_tests_cant": "all doubles; carry chain", "anchors": ["mylib/tool.cpp:rad2strE", "mylib/tool.cpp:rad2str2"]}
{"id": "C35", "title": "m2fm prints seconds below 60", "statement": "m2fm(v,fx,fs) prints minutes and seconds with 0 <= seconds < 60.", "quantifier": "every non-negative v and precision", "why_tests_cant": "rounding of the seconds field; violated just below 60", "anchors": ["mylib/tool.cpp:m2fm"]}
{"id": "C36", "title": "Angle normalisation", "statement": "rad2rrad(v) lies in (-pi,pi] and differs from v by whole turns of the double 2pi, exactly; rad2mrad(v) lies in [0,2pi), except that it can be 2pi itself for a tiny negative v, and differs from v by whole turns exactly when v >= 0 and up to one rounding otherwise. In exact arithmetic both are the unique representatives in [0,2pi) and (-pi,pi].", "quantifier": "every finite double, and every real number for the exact statement", "why_tests_cant": "all reals / all doubles; the boundary behaviour is at isolated inputs", "anchors": ["eph/eph0.cpp:rad2mrad", "eph/eph0.cpp:rad2rrad"]}
{"id": "C37", "title": "Spherical and rectangular coordinates are inverse", "statement": "In exact arithmetic xyz2llr(llr2xyz(p)) = p for p in normal form, llr2xyz(xyz2llr(v)) = v, and h2g is the vector difference.", "quantifier": "every point (not the origin, not at a pole)", "why_tests_cant": "all reals", "anchors": ["eph/eph0.cpp:llr2xyz", "eph/eph0.cpp:xyz2llr"]}
{"id": "C38", "title": "Ecliptic/equator rotation is an invertible isometry", "statement": "In exact arithmetic llrConv is the rotation by E about the equinox axis, llrConv(llrConv(p,E),-E) = p, CD2DP gives the textbook altitude and azimuth of the hour angle, and j1_j2 is the angle between two directions.", "quantifier": "every direction off the poles, every angle and observer", "why_tests_cant": "all reals", "anchors": ["eph/eph0.cpp:llrConv"]}
{"id": "C39", "title": "Line-ellipsoid intersection", "statement": "In exact arithmetic lineEll returns a point on the line and on the ellipsoid, the one nearer to the first point, and the no-intersection mark exactly when the line misses the ellipsoid.", "quantifier": "every pair of points and ellipsoid", "why_tests_cant": "all reals", "anchors": ["eph/eph.cpp:lineEll", "eph/eph.cpp:lineEar2", "eph/eph.cpp:lineEar"]}
{"id": "C40", "title": "Circle and line overlap points", "statement": "In exact arithmetic lineOvl/cirOvl return points lying on both curves, and report none exactly when there is none.", "quantifier": "all radii, centres, lines", "why_tests_cant": "all reals", "anchors": ["eph/eph.cpp:cirOvl", "eph/eph.cpp:lineOvl"]}
{"id": "C41", "title": "Eclipse contact time solves the distance equation", "statement": "In exact arithmetic lineT returns the first or the last instant (as requested) at which the linearly moving centre is at the distance r, and the mark 0 when it never is.", "quantifier": "all positions, velocities with positive first component, and radii", "why_tests_cant": "all reals", "anchors": ["eph/eph_yspl.cpp:YS_PL::lineT", "eph/eph_rspl.cpp:RS_PL::lineT"]}
{"id": "C42", "title": "Lunar eclipse classification and contacts", "statement": "lecMax reports a total eclipse exactly when, at the closest approach, the moon's disc lies inside the umbra, a partial one exactly when it only meets the umbra, and an empty type otherwise (a penumbral eclipse has no type of its own); the magnitude is the covered part of the moon's diameter and is at least 1 exactly for total eclipses; times of phases that do not occur are 0; the results do not depend on earlier calls; and if the moon moves uniformly past a shadow of constant size the contact times delimit exactly the intervals in which the discs touch or overlap.", "quantifier": "all positions, radii and velocities; all earlier calls", "why_tests_cant": "all reals and histories", "anchors": ["eph/eph_yspl.cpp:YS_PL::lecMax"]}
{"id": "C43", "title": "Solar eclipse types mean what they say", "statement": "ecFast and RS_GS::feature return one of eleven types, each with a description in the report; the type tells what observers on the Earth's disc can see (nothing, part of the sun hidden, sun covered or ring, axis on the Earth, umbra wholly on the Earth, ring at the start/end); instant and gamma are those of the closest approach of the axis; rs_search lists exactly the eclipses among the new moons it visits. (The description of type H is the wrong way round, and A1 is described as total.)", "quantifier": "all positions of sun, moon and axis; all numbers of new moons", "why_tests_cant": "all reals", "anchors": ["eph/eph.cpp:ecFast", "eph/eph_rsgs.cpp:RS_GS::feature", "eph/eph_rsgs.cpp:RS_GS::rSM", "eph/eph_show.cpp:rs_search", "eph/eph_show.cpp:rs2_calc"]}
{"id": "C44", "title": "vector behaves as a sequence", "statement": "With arguments that are separate objects (or elements of a trivially copyable type), any sequence of constructions, push_back, pop_back, insert, erase, resize, assign, clear, reserve, shrink_to_fit, copy and move on mystl::vector behaves as the same operations on an abstract sequence; size <= capacity always and no element outside [0,capacity) is touched.", "quantifier": "every history of operations", "why_tests_cant": "all histories", "anchors": ["mylib/mystl/vector.h:vector"]}
{"id": "C45", "title": "map behaves as a finite map", "statement": "mystl::map: insert (plain, with any hint, of a list), operator[], erase (key, iterator, range), clear, find, lower_bound, upper_bound, count, size and iteration in both directions behave as on a list of pairs in ascending key order with unique keys; no operation touches memory the map does not own, the destructor returns all nodes (the header leaks), a copy is independent of its source, elements never move, searches take at most 2 log2(n+1)+1 steps. Deviations: at() of an absent key returns the next element's value unless all keys are smaller; insert of an existing key may return the iterator of the next element; a moved-from map can only be destroyed.", "quantifier": "every history of operations, every key type with a strict weak order, every allocator", "why_tests_cant": "all histories, shapes and allocator choices", "anchors": ["mylib/mystl/map.h:map", "mylib/mystl/rb_tree.h"]}
{"id": "C46", "title": "sort sorts", "statement": "mystl::sort yields a sorted permutation of its input; the heap algorithms keep the heap order.", "quantifier": "every input sequence", "why_tests_cant": "all sequences", "anchors": ["mylib/mystl/algo.h:sort", "mylib/mystl/heap_algo.h"]}
{"id": "C47", "title": "Binary searches find the boundary", "statement": "lower_bound/upper_bound/binary_search/equal_range return the partition points of a sorted range.", "quantifier": "every sorted sequence and value", "why_tests_cant": "all sequences", "anchors": ["mylib/mystl/algobase.h:lower_bound", "mylib/mystl/algo.h:upper_bound"]}
{"id": "C48", "title": "Sorted-range set algebra", "statement": "set_union/intersection/difference/symmetric_difference on sorted ranges give sorted ranges with the multiset multiplicities of the standard.", "quantifier": "every pair of sorted sequences", "why_tests_cant": "all sequences", "anchors": ["mylib/mystl/set_algo.h"]}
{"id": "C49", "title": "Rise/set/transit tables do not leak between calls", "statement": "calcRTS: for up to 31 days every access stays inside the table and the sun's columns depend only on the arguments; a cell of the moon's columns shows the last computed event that falls on that day; a day without an event keeps whatever an earlier call left there, so that the table as a whole does depend on the history (more than 31 days leave the table).", "quantifier": "every history of calls", "why_tests_cant": "call histories; the code leaves stale moon entries", "anchors": ["eph/eph_szj.cpp:SZJ::calcRTS"]}
{"id": "C50", "title": "Choice of a place", "statement": "GeographicalPosition builds its name lists inside their arrays; every place of the table decodes to a latitude in [18,54) and a longitude in [75,135.1) degrees, to 1e-12 degrees; choosing province i and place j returns the coordinates of that place, its province and its name, unless its name occurs in an earlier text (86 listed places, e.g. 鞍山市 inside 马鞍山市, where the lookup goes wrong); a typed text gives the first place whose name starts with it if it occurs in no earlier text, and the default if it occurs nowhere; inputs outside the menus are undefined.", "quantifier": "every place of the table, every text without blanks and ASCII letters or digits, every pair of menu numbers, and every table of the same format", "why_tests_cant": "3192 places and all texts", "anchors": ["mylib/lat_lon_data.cpp:GeographicalPosition"]}
{"id": "C51", "title": "Series evaluation stays inside the coefficient tables", "statement": "XL0_calc, XL1_calc, pluto_coord and prece never read outside the coefficient tables for any planet, coordinate, time and term count (in the ranges where int does not overflow) and return the sum the tables denote: a count n uses the first n terms of the constant order and a proportional share of the higher orders, a negative count all of them; prece returns the polynomial of the quantity asked for.", "quantifier": "every planet and coordinate, every time, every term count up to 600000 (planets) or 130000 (moon), every negative count", "why_tests_cant": "all reals and counts", "anchors": ["eph/eph0.cpp:XL0_calc", "eph/eph0.cpp:XL1_calc", "eph/eph0.cpp:pluto_coord", "eph/eph0.cpp:prece"]}
{"id": "C52", "title": "Bessel coordinates are inverse", "statement": "In exact arithmetic bse2cd(cd2bse(z,I),I) = z.", "quantifier": "every direction and Bessel element", "why_tests_cant": "all reals", "anchors": ["eph/eph_rsgs.cpp:RS_GS::cd2bse", "eph/eph_rsgs.cpp:RS_GS::bse2cd"]}
{"id": "C53", "title": "Illuminated fraction lies in [0,1]", "statement": "moonIll returns a fraction between 0 and 1, in double arithmetic, whatever the angle, if the library cosine stays in [-1,1].", "quantifier": "every time", "why_tests_cant": "all reals", "anchors": ["eph/eph0.cpp:moonIll"]}
{"id": "C54", "title": "Eclipse interpolation table", "statement": "After RS_GS::init the interpolation chazhi reads inside the table for every time, gives the tabulated values at the nodes and is exact on parabolas (straight lines with two nodes); tabulated angles do not jump by a turn; and after any history of requests the table is the one a first request would have made.", "quantifier": "every history of requests, every time and every ephemeris whose approximate new moons lie within a day of the mean ones", "why_tests_cant": "all histories and reals", "anchors": ["eph/eph_rsgs.cpp:RS_GS::init", "eph/eph_rsgs.cpp:RS_GS::chazhi", "eph/eph0.cpp:suoN"]}
{"id": "C55", "title": "Rising, culmination and setting", "statement": "getH is the hour angle in [0, pi] at which a body of given declination stands at a given altitude (pi if it never does), mod2 the signed distance to the nearest multiple; for a sun of constant declination that turns once a day, St returns its culmination next to the local noon nearest to the instant, the lower culmination half a day later, and the exact times of rising, setting and the three twilights symmetrically around it.", "quantifier": "every site, declination, instant and altitude", "why_tests_cant": "all reals", "anchors": ["eph/eph_szj.cpp:SZJ::getH", "eph/eph_szj.cpp:mod2", "eph/eph_szj.cpp:SZJ::St"]}
{"id": "C56", "title": "Precession rotations undo each other", "statement": "In exact arithmetic CDllr_J2D and CDllr_D2J, and HDllr_J2D and HDllr_D2J, undo each other for every time and precession model, keep the distance, and are rigid rotations; at the epoch J2000 they change nothing.", "quantifier": "every time, every model (also an unknown one), every direction other than the poles", "why_tests_cant": "all reals", "anchors": ["eph/eph0.cpp:CDllr_J2D", "eph/eph0.cpp:CDllr_D2J", "eph/eph0.cpp:HDllr_J2D", "eph/eph0.cpp:HDllr_D2J"]}
{"id": "C57", "title": "Parallax", "statement": "In exact arithmetic parallax(z,H,fa,high) is the position of the body seen from the site: the geocentric vector minus the vector of the site, which lies on the reference ellipsoid with the geodetic latitude fa and is raised along the vertical; the distance keeps its unit (km or AU).", "quantifier": "every body, site, hour angle and height", "why_tests_cant": "all reals", "anchors": ["eph/eph0.cpp:parallax"]}
{"id": "C58", "title": "Nutation", "statement": "nutation(t,zq) and nutation2(t) read inside their tables and return the sum of the terms they keep; zq = 0 keeps all. The filter zq is documented to keep the terms with a period over zq days; the code does not do that (it drops the 182.6 day term for zq = 170 and every backward term).", "quantifier": "every time and every zq", "why_tests_cant": "all reals", "anchors": ["eph/eph0.cpp:nutation", "eph/eph0.cpp:nutation2"]}
{"id": "C59", "title": "The digits of a double read back", "statement": "For every positive finite double the conversion behind to_str terminates and leaves between 1 and 17 significant decimal digits without a leading zero, and the decimal number they denote rounds (to nearest, ties to even) to exactly the same double. The conversion reads the table of powers of ten beyond its end for ordinary inputs such as 1/3 (undefined behaviour); the read-back holds whatever the memory behind the table contains, the digits chosen depend on it.", "quantifier": "every positive finite double, subnormal ones included, and every content of the memory behind the table", "why_tests_cant": "2^63 doubles", "anchors": ["mylib/mystl/dtoa.h:Grisu2", "mylib/mystl/dtoa.h:DigitGen", "mylib/mystl/dtoa.h:GrisuRound", "mylib/mystl/dtoa.h:GetCachedPower"]}
{"id": "C60", "title": "A lunar month sheet, end to end", "statement": "yueLiCalc: whatever sheets and year texts were requested before, the lunar half of every month sheet is filled without an out-of-range read, and every day of it says: the lunar month between two new moons that contains the day, the day's number in it, the month's length, leap mark and name by the leap-month rule of its solstice year, the name of the next month, the solar term of the day, the cyclic year, month and day names, the year counted from the first day of month one, and the sign of the zodiac.", "quantifier": "every day range, every history of earlier calls, every calculator of solar terms and new moons that is near the mean motion", "why_tests_cant": "all histories and infinitely many term and new-moon tables", "anchors": ["lunar/lunar.cpp:yueLiCalc", "lunar/lunar_ssq.cpp:calcY", "lunar/lunar_ssq.cpp:calc"]}
{"id": "C61", "title": "Month sheets 215 BC – AD 616 with the program's own tables", "statement": "yueLiCalc for days from Julian day 1642760 to 1946200: with the new-moon and solar-term tables compiled into the program, and without any assumption on them, the lunar half of every month sheet is filled and every day's record is the one the almanac rule prescribes for the mean new moons and solar terms of those centuries: months start on the days of the mean new moons, leap months follow the no-major-term rule after the reform of 104 BC and are called the later ninth before it, the month count starts with the tenth month before the reform, and the historical renamings apply.", "quantifier": "every day of 83 decades, every length of sheet up to 31 days, every history of earlier calls in the range", "why_tests_cant": "all histories of calls, 300000 days", "anchors": ["lunar/lunar.cpp:yueLiCalc", "lunar/lunar_ssq.cpp:calcY", "lunar/lunar_ssq.cpp:calc", "lunar/lunar_ssq.cpp:suoKB", "lunar/lunar_ssq.cpp:qiKB"]}
{"id": "C62", "title": "Moon phases and solar terms of a month sheet", "statement": "yueLiCalc: after the two searches every day of the month on which a quarter phase (a solar term) falls carries the name of that phase (term), its moment and its clock time to the nearest second, and every other day is left unchanged; no event of the month is missed or attributed to another day, and no slot outside the month is written.", "quantifier": "every month, every ephemeris whose phases are at least 6 (terms at least 13) days apart and whose longitude at the beginning of the month agrees with its own events to 0.77 (0.12) radians, every accumulated rounding error of the longitudes", "why_tests_cant": "all months and ephemerides", "anchors": ["lunar/lunar.cpp:yueLiCalc", "mylib/tool.cpp:timeStr"]}
{"id": "C63", "title": "Year text lists each month and each solar term once, with its date and moment", "statement": "nianLiSTR(y): the text has one line for each month from the one containing the winter solstice of year y-1 up to (not including) the one containing the winter solstice of year y, twelve or thirteen lines; each line shows the leap mark, the name of the month (followed by 月 if it is one character), 大 or 小 for 30 or fewer days, the civil date of its new moon, and in parentheses the day and clock time (nearest second) of that same new moon in the ephemeris, then all solar terms of the month in order, each with its name, date and moment; a moment that falls on another day than the almanac day is printed in red. No term is missed, repeated or put in another month.", "quantifier": "every year y >= -4500 within the range of the calculators, every ephemeris whose events are within 4 days of the almanac days; 214 BC to AD 615 with the program's own tables", "why_tests_cant": "all years and ephemerides", "anchors": ["lunar/lunar.cpp:nianLiSTR", "lunar/lunar_ob.cpp:so_accurate2", "lunar/lunar_ob.cpp:qi_accurate2", "mylib/tool.cpp:JD2str"]}
{"id": "C64", "title": "Reversing and rotating a range", "statement": "reverse(first,last) leaves the elements of the range in the opposite order; rotate(first,middle,last) exchanges the two parts of the range, each keeping its order, and returns the position of the element that was first. Nothing outside the range changes, and every kind of iterator gives the same result.", "quantifier": "every array, every range and division of it, every element type, every iterator category the function accepts", "why_tests_cant": "all lengths and positions; the random access version walks gcd(n, l) cycles whose shape depends on both lengths", "anchors": ["mylib/mystl/algo.h:reverse", "mylib/mystl/algo.h:rotate", "mylib/mystl/algo.h:rotate_dispatch", "mylib/mystl/algo.h:rgcd"]}
{"id": "C65", "title": "Next and previous permutation", "statement": "next_permutation puts the range into the arrangement of its elements that comes directly after the present one in lexicographic order and returns true, or, when there is none, into the first arrangement and returns false; prev_permutation is the mirror image. Nothing outside the range changes.", "quantifier": "every strict weak order, every array and range, repeated and equivalent elements included", "why_tests_cant": "all arrangements of all lengths", "anchors": ["mylib/mystl/algo.h:next_permutation", "mylib/mystl/algo.h:prev_permutation"]}
{"id": "C66", "title": "In-place merge is the stable merge whatever memory is available", "statement": "inplace_merge(first,middle,last) on two consecutive sorted parts leaves the range sorted, with the same elements, equivalent elements in their old order with those of the first part first, and changes nothing outside; the result does not depend on how much memory the temporary buffer obtains, down to none.", "quantifier": "every strict weak order, every array and range, every size and content of the temporary buffer, every iterator category", "why_tests_cant": "all lengths, and every failure pattern of malloc", "anchors": ["mylib/mystl/algo.h:inplace_merge", "mylib/mystl/algo.h:merge_adaptive", "mylib/mystl/algo.h:merge_without_buffer", "mylib/mystl/algo.h:merge_backward", "mylib/mystl/algo.h:rotate_adaptive", "mylib/mystl/memory.h:temporary_buffer"]}
{"id": "C67", "title": "nth_element", "statement": "nth_element(first,nth,last) ends, keeps the elements of the range and everything outside it, and leaves at nth the element that sorting would put there, with no greater element before it and no smaller one after it. (The first half holds for operator<; the second does not: the pivot is a reference into the array being partitioned. With a comparison object the pivot is still chosen by <, and the call may never end.)", "quantifier": "every strict weak order, every array, range and position nth", "why_tests_cant": "all arrays; the recursion pattern depends on the data", "anchors": ["mylib/mystl/algo.h:nth_element", "mylib/mystl/algo.h:unchecked_partition", "mylib/mystl/algo.h:median"]}
{"id": "C68", "title": "Removing, collapsing and partitioning a range", "statement": "remove, remove_if move the elements that are kept, in their order, to the front of the range and return their end; unique does the same with the first element of every run of equal elements; partition puts the elements satisfying the predicate before the others, keeping all elements; adjacent_find returns the first pair of equal neighbours. The copying versions write exactly the kept elements to the destination. Nothing else is changed and nothing outside the ranges is read. (The value given to remove must not be a reference into the range.)", "quantifier": "every array and range, every predicate or equality, every destination that does not begin inside the source", "why_tests_cant": "all lengths and predicates", "anchors": ["mylib/mystl/algo.h:remove", "mylib/mystl/algo.h:remove_if", "mylib/mystl/algo.h:remove_copy_if", "mylib/mystl/algo.h:unique", "mylib/mystl/algo.h:unique_copy", "mylib/mystl/algo.h:adjacent_find", "mylib/mystl/algo.h:partition", "mylib/mystl/algo.h:partition_copy"]}
{"id": "C69", "title": "Searching for a subsequence", "statement": "search returns the first place where the pattern occurs in the range, find_end the last one (the end of the range for an empty pattern), search_n the first run of n equal values; each returns the end of the range when there is none and reads nothing outside the two ranges. find_end gives the same result for forward and for bidirectional iterators.", "quantifier": "every text, pattern, count and equality predicate", "why_tests_cant": "all texts and patterns, with every overlap structure", "anchors": ["mylib/mystl/algo.h:search", "mylib/mystl/algo.h:search_n", "mylib/mystl/algo.h:find_end", "mylib/mystl/iterator.h:reverse_iterator"]}
{"id": "C70", "title": "is_permutation", "statement": "is_permutation(first1,last1,first2,last2,pred) is true exactly when the elements of the first range can be rearranged to match the second range element by element.", "quantifier": "every equivalence relation, every pair of ranges of any lengths, random access or not", "why_tests_cant": "all pairs of sequences and all rearrangements", "anchors": ["mylib/mystl/algo.h:is_permutation"]}
{"id": "C71", "title": "Local circumstances of a solar eclipse", "statement": "RS_PL::secMax(jd,L,fa,high): the type is 环, 全, 偏 or empty exactly according to whether, at the instant of greatest eclipse, the moon's disc lies within the sun's, the sun's within the moon's, they only overlap, or do not meet; none of the instants sampled each second around it shows a deeper eclipse. No contact time outside the interval from sunrise to sunset is reported; the magnitude is the covered part of the diameter at greatest eclipse, or at sunrise (#) or sunset (*) when greatest eclipse is outside that interval and the sun rises or sets eclipsed. For a moon passing uniformly the times are exactly the first and last instants of the eclipse and of its central phase, the duration is their difference and the position angles are the directions of the contacts. Nothing depends on an earlier call. (Where the sun does not rise or set, all times are erased even in permanent daylight: proved as a defect.)", "quantifier": "every ephemeris, site, starting time and history of calls", "why_tests_cant": "all sites, ephemerides and former contents of the static members", "anchors": ["eph/eph_rspl.cpp:secMax", "eph/eph_rspl.cpp:lineT", "eph/eph_rspl.cpp:secXY", "eph/eph0.cpp:sunShengJ"]}
{"id": "C72", "title": "Sun and moon panel", "statement": "MSC::calc(T,L,fa,high) then the MSC members: for the moon and for the sun the ecliptic place shown is the ephemeris place with aberration and nutation in longitude, the equatorial place is it turned by the true obliquity, the hour angle is sidereal time minus right ascension in (-pi,pi], and the azimuth (0..2pi) and altitude are exactly the direction of the straight line from the site on the ellipsoid (at its height) to the body. The equation of time is in (-1/2,1/2] days; true solar time is mean solar time plus it. When moon and sun are within 50 degrees of right ascension the central point shown is the point of the Earth, nearest to the moon, on the line sun-moon; 100,100 is shown otherwise or when the line misses the Earth. Nothing depends on an earlier call.", "quantifier": "every ephemeris, instant, site and history of calls; all directions except exactly along the Earth's axis", "why_tests_cant": "all sites, instants and places of the bodies", "anchors": ["eph/eph_msc.cpp:MSC::calc", "eph/eph.cpp:lineEar", "eph/eph0.cpp:parallax"]}
{"id": "C73", "title": "Refraction", "statement": "MQC(h) for altitudes 0<h<=pi/2 is below 0.0085 rad, decreases strictly with altitude, and h+MQC(h) is strictly increasing with values in (0,pi/2): refraction never exchanges the altitudes of two bodies. It raises every body up to 1.5689 rad. (Defects proved: it lowers bodies closer than about 0.0018 rad to the zenith, and the altitude shown jumps by more than 28 minutes of arc when a body crosses the horizon, because the correction is applied only above it.)", "quantifier": "every pair of altitudes above the horizon", "why_tests_cant": "a continuum of altitudes", "anchors": ["eph/eph0.cpp:MQC", "eph/eph_msc.cpp:MSC::calc"]}
{"id": "C74", "title": "Instants of the sun's longitudes", "statement": "With the built-in series, every apparent longitude W of the sun, counted through the turns from 30 centuries before to 30 centuries after 2000, is reached at exactly one instant of that span (S_aLon is strictly increasing), and S_aLon_t(W) returns an instant within 2.2 seconds of it. Consecutive solar terms (longitudes 15 degrees apart) come out in order and 14.39 to 16.14 days apart.", "quantifier": "every real longitude |W| <= 18800 rad", "why_tests_cant": "a continuum of longitudes over 6000 years; convergence of the Newton steps and the truncation of the series to 3 and 10 terms must be bounded everywhere", "anchors": ["eph/eph0.cpp:S_aLon_t", "eph/eph0.cpp:S_aLon", "eph/eph0.cpp:E_v", "eph/eph0.cpp:XL0_calc", "eph/eph0.cpp:nutationLon2", "eph/eph_data.h"]}
{"id": "C75", "title": "Instants of the moon's phases", "statement": "With the built-in series, every lead W of the moon over the sun, counted through the months from the year -1000 to 3000, is reached at exactly one instant of that span, and MS_aLon_t(W) returns an instant within 78 seconds of it. Consecutive new moons (and other equal phases) come out in order and 27.3 to 31.8 days apart. (The moon's series jumps back by 0.866 arc seconds at the year 3000, which is why the span ends there.)", "quantifier": "every real angle -233100 <= W <= 77700 rad", "why_tests_cant": "a continuum of angles over 4000 years; convergence of the Newton steps and the truncations must be bounded everywhere", "anchors": ["eph/eph0.cpp:MS_aLon_t", "eph/eph0.cpp:MS_aLon", "eph/eph0.cpp:M_v", "eph/eph0.cpp:XL1_calc", "eph/eph_data.h"]}
{"id": "C76", "title": "The quick date of a solar term is the precise one", "statement": "S_aLon_t2(W) is within 1840 s of the true instant over 30 centuries and within 1184 s over 9 centuries. SSQ::qi_high, which uses it and computes precisely only when the estimate is within 20 minutes of midnight (or before 2000), always puts the solar term on the same Beijing day as the precise S_aLon_t would.", "quantifier": "every longitude from the year -992 to 2896, whatever the slow-down dt_T of the Earth's rotation returns above minus a century", "why_tests_cant": "a single term near midnight with a worse estimate would change a calendar; the error must be bounded for all terms", "anchors": ["lunar/lunar_ssq.cpp:SSQ::qi_high", "eph/eph0.cpp:S_aLon_t2", "eph/eph0.cpp:S_aLon_t"]}
{"id": "C77", "title": "The quick date of a new moon is the precise one", "statement": "MS_aLon_t2(W) is within 1752 s of the true instant over four centuries around 2000. SSQ::so_high, which uses it and computes precisely only when the estimate is within 30 minutes of midnight (or before 2000), always puts the lunar phase on the same Beijing day as the precise MS_aLon_t would.", "quantifier": "every angle from the year -1000 to 2400 (-233100 <= W <= 31080), whatever the slow-down dt_T of the Earth's rotation returns above minus a century", "why_tests_cant": "one new moon near midnight with a worse estimate would shift a lunar month; the error must be bounded for all of them", "anchors": ["lunar/lunar_ssq.cpp:SSQ::so_high", "eph/eph0.cpp:MS_aLon_t2", "eph/eph0.cpp:MS_aLon_t"]}
{"id": "C78", "title": "A lunar month has 29 or 30 days", "statement": "With the built-in series two consecutive new moons (or other equal phases) from the year -1000 to 3000 are more than 29 days 6 minutes and less than 29 days 23 hours 54 minutes apart, MS_aLon_t puts them more than 29 and less than 30 days apart, and the Beijing days given by SSQ::so_high (to the year 2400) are exactly 29 or 30 days apart; dt_T never reads outside its table.", "quantifier": "every real angle -233100 <= W <= 77690 rad (31070 for the days); every dt_T changing by at most 150 s in 200 days, in particular the built-in one", "why_tests_cant": "a continuum of angles over 4000 years; every combination of the 800 periodic terms must be excluded", "anchors": ["lunar/lunar_ssq.cpp:SSQ::so_high", "eph/eph0.cpp:MS_aLon_t", "eph/eph0.cpp:dt_T", "eph/eph0.cpp:dt_calc", "eph/eph_data.h"]}
{"id": "C79", "title": "The modern calendar, end to end", "statement": "From July 1965 to April 2397 (days -12600..145100 from 1.1.2000), after any history of month sheets and year texts, every month sheet is defined and every day of it carries the record that the traditional rules prescribe (month of the solstice year, leap month rule, day number, solar term, year, month and day names, zodiac), where the solar terms are the Beijing days on which the computed longitude of the sun reaches the multiples of 15 degrees and the new moons those on which the computed moon catches up with the computed sun; the months have 29 or 30 days.", "quantifier": "every history of calls, every month sheet of 432 years, every slow-down dt_T with the stated bounds (in particular the built-in one), every double-precision evaluation of qi_high and so_high whose error is worth at most 1e-6 rad of the angle", "why_tests_cant": "all months of four centuries after all histories; the search windows of calcY and calc must catch every new moon whatever the perturbations", "anchors": ["lunar/lunar_ob.cpp:OB::yueLiCalc", "lunar/lunar_ssq.cpp:SSQ::calcY", "lunar/lunar_ssq.cpp:SSQ::calc", "lunar/lunar_ssq.cpp:SSQ::qi_high", "lunar/lunar_ssq.cpp:SSQ::so_high", "eph/eph0.cpp:S_aLon_t", "eph/eph0.cpp:MS_aLon_t", "eph/eph0.cpp:dt_T"]}
{"id": "C80", "title": "The equation of time", "statement": "Within 3000 years of 2000 pty_zty2 and pty_zty return, in days, the mean longitude of the sun minus its right ascension without whole turns (pty_zty with aberration, nutation and the sun's latitude); the answer never exceeds 20 minutes, nor 18 minutes within a century of 2000; from 1000 to 3000 the two differ by at most 5 seconds; pty_zty2 changes by at most 37 seconds a day, so the true solar time used for the four pillars runs with the clock: of two instants a tenth of a second or more apart the later has the later true solar time.", "quantifier": "every real instant |t| <= 30 centuries, every place", "why_tests_cant": "a continuum of instants; the series, the reduction to the equator and the normalisation of the angle must be bounded everywhere", "anchors": ["eph/eph0.cpp:pty_zty", "eph/eph0.cpp:pty_zty2", "eph/eph0.cpp:hcjj", "eph/eph0.cpp:llrConv", "lunar/lunar_ob.cpp:OBB::mingLiBaZi"]}
{"id": "C81", "title": "mystl::list behaves as a sequence", "statement": "For every history of constructions, copies, moves, destructions, push/pop/insert/emplace/erase (single and ranges), clear, resize, assign, copy and move assignment, swap, the three splices, remove_if, unique, merge, sort and reverse on any number of list objects: no null, freed or foreign node is touched and every loop ends; size, empty, front, back, forward and backward traversal and every iterator show exactly the specified sequence; iterators to surviving elements stay with their element; sort gives a stable sorted permutation and merge and splice move the nodes; every allocated node belongs to exactly one existing list, so nothing leaks. Returned iterators are the place worked at; == compares the sequences. Known violations: a range splice within one list does nothing, remove(x.front()) reads freed memory, a moved-from list cannot even be assigned to, self move-assignment empties the list.", "quantifier": "every finite history of calls that respects the preconditions, every allocator, every element type, predicate and order", "why_tests_cant": "unbounded histories over aliasing pointer structures; leaks and dangling links show only in combinations of calls", "anchors": ["mylib/mystl/list.h:list", "mylib/mystl/list.h:list_sort", "mylib/mystl/list.h:merge", "mylib/mystl/list.h:splice", "mylib/mystl/list.h:unlink_nodes", "mylib/mystl/list.h:link_nodes"]}
{"id": "C82", "title": "Sunrise, sunset, twilight and noon from the built-in ephemeris", "statement": "With the built-in series, SZJ::St(jd) works on the local mean noon nearest to jd. From -998 to 2999, up to 60 degrees of latitude, there is exactly one instant of that morning and one of that evening at which the centre of the sun stands 50' below the horizon, in the east and in the west respectively, and r.s and r.j are within one second of them; the same for civil twilight (6 degrees, up to latitude 54), nautical (12 degrees, up to 45) and astronomical twilight (18 degrees, up to 45, within 1.1 s); up to 45 degrees no remark appears. r.z is within a millisecond of an instant of hour angle 0, at most 35 minutes from mean noon, r.x within 10 ms of the lower culmination. For SZJ::Mt and any lunar ephemeris whose hour angle and hour angle of rising depart from the assumed uniform motion by K rad/day (K at most 0.2), moonrise, moonset and the culminations are within 0.0291*K^2 days (100 s) of instants at which the moon's centre is exactly at the altitude of rising of that instant, on the proper side of the meridian.", "quantifier": "every longitude and latitude in the stated ranges, every real instant of 4000 years; every lunar ephemeris of bounded speed", "why_tests_cant": "a continuum of places and instants; one correction step must suffice although sun and moon move on a curved path meanwhile", "anchors": ["eph/eph_szj.cpp:SZJ::St", "eph/eph_szj.cpp:SZJ::Scoord", "eph/eph_szj.cpp:SZJ::Mt", "eph/eph_szj.cpp:SZJ::Mcoord", "eph/eph_szj.cpp:SZJ::getH", "eph/eph0.cpp:pGST", "eph/eph0.cpp:hcjj", "eph/eph0.cpp:E_Lon"]}
{"id": "C83", "title": "The limit lines and the centre line of a solar eclipse", "statement": "RS_GS::nanbei gives, north or south, a point of the fundamental plane on the edge of the penumbra (or umbra), on the right side of the axis and square to the motion of the shadow over the turning Earth; the place it returns is the highest point of the Earth's ellipsoid on a generator of the cone of shadow, at exactly the radius of the penumbral cone at its height (within 0.000227/z Earth radii of that of the umbra), or 100, 100 when that line misses the Earth. RS_GS::bseXY2db gives the highest point of the Earth on the axis, or 100, 100. RS_GS::qrd gives the instant and place of first and last contact to second order. RS_GS::jieX3 lists, in order, exactly those of the 360 whole minutes around greatest eclipse at which one of the five places exists.", "quantifier": "every position of the moon and of the axis, every velocity of the shadow faster than the ground, every ephemeris", "why_tests_cant": "a continuum of configurations; the iteration leaves the disc of the Earth and comes back, and the marker 100 must mean exactly 'no such place'", "anchors": ["eph/eph_rsgs.cpp:RS_GS::nanbei", "eph/eph_rsgs.cpp:RS_GS::bseXY2db", "eph/eph_rsgs.cpp:RS_GS::bse2db", "eph/eph_rsgs.cpp:RS_GS::qrd", "eph/eph_rsgs.cpp:RS_GS::jieX3", "eph/eph_rsgs.cpp:RS_GS::rSM"]}
{"id": "C84", "title": "The centre and the limits of a solar eclipse at an instant", "statement": "RS_PL::zb0 finds the vertices of the two cones touching sun and moon: a line through either touches the sun exactly when it touches the moon. RS_PL::nbj reports as centre the point of the Earth's ellipsoid on the line through moon and sun nearest to the moon - where the two centres appear in exactly the same direction - and calls the eclipse annular exactly when the sun appears larger than the moon there, or marks the place 100 and gives no kind when the line misses the Earth. Every round of a limit aims at the point of the sun's edge square to the relative motion seen by the observer; the width is given exactly when both limits of the umbra exist.", "quantifier": "every ephemeris and every instant", "why_tests_cant": "a continuum of configurations; parallax, ellipsoid and sidereal time must fit together exactly", "anchors": ["eph/eph_rspl.cpp:RS_PL::nbj", "eph/eph_rspl.cpp:RS_PL::zb0", "eph/eph_rspl.cpp:RS_PL::zbXY", "eph/eph_rspl.cpp:RS_PL::p2p", "eph/eph_rspl.cpp:RS_PL::pp0", "eph/eph.cpp:lineEar"]}
{"id": "C85", "title": "priority_queue is a multiset that shows a largest element", "statement": "For every history of constructions (empty, with a comparison, from elements), copies, moves, copy, move and list assignment, push/emplace, pop, clear and swap on any number of priority queues: nothing outside an array is touched and every loop ends; each queue holds exactly the multiset and the order the calls prescribe, each pop having removed a largest element; size and empty answer for that multiset and top is a largest element of it; taking top and pop until the queue is empty yields all its elements, largest first.", "quantifier": "every finite history of allowed calls, every element type and strict weak order", "why_tests_cant": "unbounded histories; the heap invariant must survive every interleaving of calls", "anchors": ["mylib/mystl/queue.h:priority_queue", "mylib/mystl/heap_algo.h:push_heap", "mylib/mystl/heap_algo.h:pop_heap", "mylib/mystl/heap_algo.h:make_heap"]}
{"id": "C86", "title": "The numeric algorithms, in place or not", "statement": "accumulate folds the operation over the range from the left (with + it is init plus the sum), inner_product folds the first operation over the second applied to the pairs, iota fills exactly the range with value, ++value, ...; adjacent_difference and partial_sum put into the output, also when it is the range itself, starts before it or after its end, the differences of neighbours and the running folds of the original range, return the end of the output and leave everything else alone; in place the sums of the differences are the original numbers.", "quantifier": "every array, range, output position and operation", "why_tests_cant": "all lengths and all overlaps of input and output", "anchors": ["mylib/mystl/numeric.h:accumulate", "mylib/mystl/numeric.h:adjacent_difference", "mylib/mystl/numeric.h:inner_product", "mylib/mystl/numeric.h:iota", "mylib/mystl/numeric.h:partial_sum"]}
{"id": "C87", "title": "static_array objects are independent values", "statement": "For every history of default, list and copy constructions, assignments, element writes, fill and ends of lifetime on any number of static_array objects, with indexes below N and lists of at most N elements: nothing outside an object is written and operator[] and get return exactly the values the calls on that object prescribe (missing list elements are default values, copies take the values once); iterating over an object that was not copy-constructed visits its own N values in order.", "quantifier": "every N, element type and finite history of calls", "why_tests_cant": "unbounded histories over aliasing objects; the stored iterators go wrong only after copies", "anchors": ["mylib/mystl/static_array.h:static_array", "mylib/mystl/static_array.h:array3"]}
{"id": "C88", "title": "The times of a lunar eclipse under the true, curved motion", "statement": "If the moon crosses the umbra (the penumbra, the circle of totality) eastward at most nine tenths of its radius from the centre, while its velocity changes by at most e and the radius by at most b a day, together at most a hundredth of the speed W, then there are two instants between which, within the window, the moon's disc meets the umbra (meets the penumbra, is inside the umbra) and outside of which it does not, and the contact times lecMax reports differ from them by at most 14((e+b)/W)^2 r/W - a few seconds for the real moon; the time of greatest eclipse differs from the instant of least distance by at most 1.05 (e/W) r/W; all this after any earlier computation.", "quantifier": "every ephemeris with the stated steadiness, every history", "why_tests_cant": "a continuum of curved paths; two rounds of linear extrapolation must suffice for all of them", "anchors": ["eph/eph_yspl.cpp:YS_PL::lecMax", "eph/eph_yspl.cpp:YS_PL::lineT"]}
{"id": "C89", "title": "unordered_map and unordered_set hold one element per key", "statement": "After any history of insertions (one at a time, emplaced, in ranges, through operator[]), erasures (by key, by position), clear, rehash, reserve, changes of the maximal load factor, swaps and copies, on two tables built with any bucket count, no operation divides by zero, leaves the bucket vector or follows a dangling pointer, and every answer (was it inserted, how many erased, find, at, count, size, the elements on iteration) is that of a plain collection with one element per key; so for a table built from a range, and for erasing a range of positions, which removes exactly those elements; the bucket count is the least prime of the table's list not below the one asked for.", "quantifier": "every key, element and hash type with a lawful equality and hash, every load factor arithmetic, every history, every starting bucket count", "why_tests_cant": "unbounded histories with rehashing at any moment, arbitrary hash functions", "anchors": ["mylib/mystl/hashtable.h:insert_unique", "mylib/mystl/hashtable.h:erase", "mylib/mystl/hashtable.h:replace_bucket", "mylib/mystl/unordered_map.h:unordered_map", "mylib/mystl/unordered_set.h:unordered_set"]}
{"id": "C90", "title": "unordered_multimap and unordered_multiset keep all elements and their groups", "statement": "After any history of insertions, ranged insertions, erasures by position, of equal ranges or of everything, clear, rehash, reserve, load factor changes, swaps and copies, the table holds exactly the elements put in and not taken out; count gives how many have a key, equal_range exactly those elements, find one of them, and none only if there is none; no operation goes outside the memory of the table. erase(key) is the exception: whenever the key is present it follows a pointer to a freed node.", "quantifier": "every key, element and hash type with a lawful equality and hash, every history", "why_tests_cant": "unbounded histories; equal elements must stay adjacent through every rehash", "anchors": ["mylib/mystl/hashtable.h:insert_multi", "mylib/mystl/hashtable.h:equal_range_multi", "mylib/mystl/hashtable.h:erase_multi", "mylib/mystl/unordered_map.h:unordered_multimap", "mylib/mystl/unordered_set.h:unordered_multiset"]}
{"id": "C91", "title": "The eclipse search examines each new moon once", "statement": "rs_search(Y, M, n) examines exactly n consecutive new moons, the first one within 18 days before and 15 days after the given month begins, none after the beginning being missed, each once and in order; it prints date and type of exactly those with an eclipse, five to a line; quick and full computation speak of the same new moon; the result does not depend on what was searched before; and the quick new moon is within an hour of the true one between 1600 and 2400.", "quantifier": "every starting month and number of new moons within 8000 years of 2000, every ephemeris whose new moons are within three days of the mean, every earlier history", "why_tests_cant": "the next new moon is found from the last result; the step could lose or repeat one after any number of rounds", "anchors": ["eph/eph_show.cpp:rs_search", "eph/eph.cpp:ecFast", "eph/eph_rsgs.cpp:RS_GS::init"]}
{"id": "C92", "title": "Apsides, greatest elongations and stations: the extremum found is the true one", "statement": "moonMinR, earthMinR, daJu and xingLiu, asked for any instant, return the extremum (nearest or farthest distance, greatest elongation, turn of the right ascension) that belongs to the mean event next to that instant, with an error of time and value bounded by the curve's curvature and the errors of the short series used on the way; three-point rounds are exact on a parabola; and the list that steps on from one result to the next shows every event once, in order, none missed or repeated.", "quantifier": "every instant, every curve whose curvature stays within bounds near its extremum and every series that stays within bounds of it, every number of listed events", "why_tests_cant": "the rounds are numerical and start from a mean event; whether they reach the right extremum, and how near, depends on the whole curve", "anchors": ["eph/eph0.cpp:moonMinR", "eph/eph0.cpp:earthMinR", "eph/eph.cpp:daJu", "eph/eph.cpp:xingLiu", "test/test1.cpp"]}
{"id": "C93", "title": "Nodes of the moon, conjunctions and oppositions: the crossing found is the true one", "statement": "moonNode, asked for any instant, returns the passage through the node that belongs to the mean node next to that instant, and the longitude there; xingHR and xingHY, started less than half a turn from it, return the conjunction or opposition; the error is bounded by the change of speed and the errors of the short series; the rounds with the mean speed lose a fixed fraction of the distance each time; the list of nodes shows every node once although it steps on by the anomalistic month.", "quantifier": "every instant, every curve whose speed stays within bounds near the crossing and every series within bounds of it, every number of rounds and listed events", "why_tests_cant": "the correction uses a speed computed elsewhere with a shorter series; whether it converges, and how near, depends on the whole curve", "anchors": ["eph/eph0.cpp:moonNode", "eph/eph.cpp:xingHR", "eph/eph.cpp:xingHY", "test/test1.cpp"]}
{"id": "C94", "title": "The eclipse browser shows the new moon asked for", "statement": "In every session with rs2_calc, however long, each call answers for the new moon it should: the one nearest the instant given, the same one, the one before, the next; the list shows a hundred consecutive new moons, each once and in order, those with an eclipse only; every answer depends on the new moon alone and not on what was looked at before; next and back return to the same new moon. Exceptions: a list moves the browser a hundred new moons on; a mode above 5 returns nothing at all; the annular eclipse of type A1 is named total.", "quantifier": "every session (any sequence of calls) within 8000 years of 2000, every ephemeris whose new moons are within three days of the mean", "why_tests_cant": "the state is a static variable moved by every call; a step could lose or repeat a new moon after any history", "anchors": ["eph/eph_show.cpp:rs2_calc", "eph/eph_show.cpp:rs2_jxb", "eph/eph_rsgs.cpp:RS_GS::feature"]}
{"id": "C95", "title": "The panel of rising and setting and the yearly tables show the right days and times", "statement": "For every existing date the panel shows each instant of sun and moon it computed in Beijing time to the nearest second with the right date, and the lengths of day and daylight to the nearest second; for every year the tables have 368 rows, one for every day from 1 January on, in order, none missing; the table of the equation of time shows the date and the value at noon Beijing time of that day; the table of rising and setting computes for noon of that day and shows the setting to the second. Exception: of the rising only the date without the first column of its year, and the hour, are shown.", "quantifier": "every date, every year, all values of the computed instants in range", "why_tests_cant": "all dates and all instants; rounding in doubles could show another second or day", "anchors": ["eph/eph_show.cpp:shengjiang", "eph/eph_show.cpp:shengjiang2", "eph/eph_show.cpp:shengjiang3"]}
{"id": "C96", "title": "The panel of a planet, the sun or the moon is the place seen at that instant", "statement": "For every instant and site xingX shows, for a planet or the sun, the heliocentric coordinates, the apparent place (body and Earth at the instant less the light time, nutation added) in ecliptic and equatorial coordinates, the place seen from the site on the Earth's ellipsoid, azimuth and altitude there (with refraction above the horizon), the mean and true sidereal time and the three distances; the same for the moon; the light time used differs from that of the way travelled by at most the fraction v/c. Exception: for a number outside 0...10 values never set are used.", "quantifier": "every instant, site, ephemeris and body 0...10 not seen exactly along an axis", "why_tests_cant": "a chain of rotations and translations must be right for every direction, not for samples", "anchors": ["eph/eph.cpp:xingX", "eph/eph0.cpp:h2g", "eph/eph0.cpp:parallax", "eph/eph0.cpp:llrConv"]}
{"id": "C97", "title": "The report of sun, moon and eclipses speaks of the right instant and lists the contacts", "statement": "For every date rysCalc computes for that instant (dynamical time, or Beijing time less eight hours plus Delta T, to a thousandth of a second); it shows the solar part exactly when the longitudes of sun and moon differ by less than 3 degrees, the lunar part exactly when the moon is within 10 degrees of opposition, never both, and always the panel; the timetable has one line for each contact that happens, in the order of the list, with its name (the annular ones for an annular eclipse) and its instant to the nearest second in the time chosen; the five limit points, kind, magnitude and duration are those computed. Exception: a contact exactly at noon of 1 January 2000 TD would be taken for one that does not happen.", "quantifier": "every date, flags, ephemeris values, lists of contacts", "why_tests_cant": "all instants; conversions in doubles forth and back could move a contact to another second or drop it", "anchors": ["eph/eph_show.cpp:rysCalc", "eph/eph_rspl.cpp:RS_PL::secMax", "eph/eph_yspl.cpp:YS_PL::lecMax"]}
{"id": "C98", "title": "A deque is the sequence its history says", "statement": "Building a deque from any sequence (or from n copies of a value) and applying any history of push_front, push_back, pop_front, pop_back, insert at a position, erase at a position, assignment through operator[], clear and shrink_to_fit, each legal for the sequence at that moment, yields a deque whose size(), empty(), operator[], front() and back() are those of the resulting sequence. No step reads or destroys an unconstructed cell, constructs over an element, releases a buffer with a live element, leaves the map or uses a released buffer, and neither does the destructor afterwards.", "quantifier": "every element type size, initial sequence and legal history of operations", "why_tests_cant": "the buffer map, its reallocation and the two halves of insert and erase depend on the whole history; boundary cases occur only when pushes and pops cross buffer ends", "anchors": ["mylib/mystl/deque.h: deque::push_front, push_back, pop_front, pop_back, insert, erase, clear, shrink_to_fit, operator[], require_capacity, reallocate_map_at_front, reallocate_map_at_back, copy_init, fill_init", "mylib/mystl/deque.h: deque_iterator"]}
{"id": "C99", "title": "The buffers a deque holds and what its destructor leaves behind", "statement": "While a deque is changed only by single-element operations (no clear), it holds exactly the buffers its elements spread over, between n/B+1 and (n+B-1)/B+1 for n elements and B cells per buffer. The destructor releases only the first of them: after pushes and pops with f more pushes than pops at the front it leaves floor((n-f)/B) - floor(-f/B) buffers allocated, n/B after n push_backs; clear() releases none of them.", "quantifier": "every element size, initial sequence and history of single-element operations", "why_tests_cant": "a leak is visible only as allocator state after arbitrary histories, never through the container's own results", "anchors": ["mylib/mystl/deque.h: ~deque, clear, shrink_to_fit, create_buffer, destroy_buffer, copy_init"]}
{"id": "C100", "title": "Queue and stack over a deque", "statement": "A queue is first-in first-out and a stack last-in first-out for every history of pushes and legal pops: front(), back(), top(), size() and empty() are those of the abstract queue or stack; clear() empties it after exactly size() pops.", "quantifier": "every element size and every history of pushes and pops", "why_tests_cant": "the order must survive every placement of buffer boundaries and map reallocations", "anchors": ["mylib/mystl/queue.h: queue", "mylib/mystl/stack.h: stack", "mylib/mystl/deque.h"]}
{"id": "C101", "title": "A multimap or multiset is the sorted collection its history says", "statement": "Any history of insertions (plain, with any iterator as hint, of a list), erasures by key, iterator and range, clear, find, lower_bound, upper_bound, equal_range, count, size and iteration in both directions on an initially empty multimap (or multiset) runs without undefined behaviour and gives the results of a list kept in key order: a new element stands behind all elements that are not greater (directly before an inner hint at which it fits), erase(key) removes all elements with the key and returns how many, equal_range walks exactly those. Insertions move no element; clear frees all nodes; a copy is independent.", "quantifier": "every strict weak order, element type, allocator and history of operations", "why_tests_cant": "the rebalancing of the tree and the repeated keys interact over the whole history; the place of equal keys depends on rotations done long before", "anchors": ["mylib/mystl/rb_tree.h: emplace_multi, insert_multi, emplace_multi_use_hint, insert_multi_use_hint, get_insert_multi_pos, erase_multi, count_multi, equal_range_multi", "mylib/mystl/map.h: multimap", "mylib/mystl/set.h: multiset"]}
{"id": "C102", "title": "The estimated new moons and solar terms are in order, and the one nearest to the asked day is computed", "statement": "With the low-precision series used for the calendar before 1960, consecutive new moons are more than 29.17 and less than 29.9 days apart, so their days differ by 29 or 30; consecutive solar terms are between 14.5 and 15.9 days apart, so their days differ by 14 to 16. The serial number the program derives from the day it is given is that of the new moon (solar term) whenever that day is at most 12 days before or 15 days after the new moon (6 days before or 4 days after the term).", "quantifier": "every lunation number with |k| <= 61000 (5000 years each way) and every solar-term number with |k| <= 34000; for the serial number all lunations from 600 to 2000, all terms from 1600 to 2000 and every real day", "why_tests_cant": "tens of thousands of lunations and a continuum of days; a single reversed or doubled month anywhere would corrupt a calendar year", "anchors": ["lunar/lunar_ssq.cpp: SSQ::so_low, SSQ::qi_low, SSQ::calc"]}
{"id": "C103", "title": "Copying, moving, filling and comparing ranges is exact, also within one array", "statement": "copy, copy_n and copy_if put exactly the (chosen) source values at the destination, change nothing else and return the end of the destination, for all iterator categories, also if source and destination overlap, unless the destination begins inside the source; copy_backward likewise unless the destination ends inside the source. In the excluded cases the element-wise versions repeat the elements next to the destination (only pointers to trivially copyable types still copy rightly). move and move_backward leave exactly the source elements outside the destination moved-from; moving a range onto itself empties it. fill and fill_n give every element the value even if the value is a reference into the range. equal, mismatch and lexicographical_compare (also its unsigned char overload) decide element-wise equality, the first difference and dictionary order.", "quantifier": "every memory content, element type, range, destination, overlap and comparison function", "why_tests_cant": "the overlaps, lengths and values are unbounded; whether a wrong element is read depends on the relative position of the ranges", "anchors": ["mylib/mystl/algobase.h: copy, copy_backward, copy_if, copy_n, move, move_backward, fill, fill_n, equal, lexicographical_compare, mismatch"]}
{"id": "C104", "title": "Operations of a deque on several elements", "statement": "Extending the history of C98 by insert of n copies, insert of a range, erase of a range, resize, assign of n copies, assign of a range and copy assignment, at any positions and of any lengths: the deque's size(), empty(), operator[], front() and back() are always those of the resulting sequence, and no step (nor the destructor at the end) touches memory it must not. For element types whose destructor does something, erasing a range is excluded (unless it is empty or everything): the code destroys a raw pointer range, which is undefined as soon as the erased end of the deque crosses a buffer boundary - always if at least a buffer full of elements is erased, and already for the last element of a deque built from exactly one buffer full.", "quantifier": "every element type size, initial sequence and legal history of operations on single and several elements", "why_tests_cant": "four different ways of moving elements are chosen by position and count, each may cross buffer boundaries and reallocate the map; the state depends on the whole history", "anchors": ["mylib/mystl/deque.h: insert, fill_insert, copy_insert, insert_dispatch, erase(first, last), resize, assign, fill_assign, copy_assign, operator=", "mylib/mystl/uninitialized.h"]}
{"id": "C105", "title": "Scanning, transforming, shuffling and partially sorting ranges", "statement": "is_sorted and is_heap answer exactly whether the range is sorted or a heap; max_element and min_elememt return the first of the largest (smallest) elements; find_first_of the first element matching one of the given ones. transform, replace, replace_if, replace_copy, replace_copy_if, reverse_copy and generate write exactly the meant values at the meant places and nothing else. Both random_shuffle versions permute the range and touch nothing else, whatever the random numbers; if all elements differ, every order arises from one and only one choice of the exchanged partners. partial_sort_copy puts the smallest elements of the source, sorted, into the destination, as many as fit, returns the end of what it wrote and changes nothing else.", "quantifier": "every array, range, element type, strict weak order, operation, random sequence, source and destination length", "why_tests_cant": "ranges, orders and random sequences are unbounded; that a shuffle can reach each order in exactly one way is a statement about all sequences of random numbers", "anchors": ["mylib/mystl/algo.h: is_sorted, is_heap, max_element, min_elememt, find_first_of, transform, replace, replace_if, replace_copy, replace_copy_if, reverse_copy, generate, generate_n, random_shuffle, partial_sort_copy, psort_copy_aux", "mylib/mystl/algobase.h: iter_swap"]}
{"id": "C106", "title": "auto_ptr: every object has one owner and is deleted once", "statement": "Whatever a program legally does with its auto_ptr variables (construction from a new object or from a released pointer, copying, assignment, also to itself, between element types, release, reset, destruction): no object is deleted twice or used after deletion; every object not yet deleted is held by exactly one variable, or is in the hands of the program after release(); get() is the object held or null; assignment and copying pass the object on and leave null behind; when no variable is left, everything has been deleted except what was released.", "quantifier": "every number of variables and objects and every legal history", "why_tests_cant": "ownership after a step depends on the whole history of transfers; a double deletion may show long after its cause", "anchors": ["mylib/mystl/memory.h: auto_ptr"]}
{"id": "C107", "title": "Comparison operators of pairs and containers", "statement": "== of vectors, deques, lists and the ordered containers holds exactly for sequences of the same length with equal corresponding elements; < is dictionary order. If < of the elements is a strict weak order, so is < of the containers; if == of the elements agrees with <, so does == of the containers, and exactly one of a<b, a==b, a>b holds, !=, <=, >= being what they should. For pairs the same holds if == of the first components agrees with their <; otherwise < of pairs may fail to be a strict weak order.", "quantifier": "every element type, strict weak order, equality, and every two (three) sequences of any length", "why_tests_cant": "transitivity is a statement about all triples of sequences of all lengths", "anchors": ["mylib/mystl/util.h: pair operators", "mylib/mystl/vector.h, deque.h, list.h, rb_tree.h: operator==, operator<, operator!=, operator>, operator<=, operator>="]}
{"id": "C108", "title": "The functions driven to zero by the searches for conjunctions, oppositions and stations are what they should be", "statement": "The comparison of moon and planet gives, between -pi and pi, the difference of their apparent right ascensions (each taken back by its light time, the planet seen from the Earth of the same instant, nutation and obliquity applied); it is 0 exactly when the two are on one meridian of the sky. The comparison of planet and sun gives the difference of apparent longitudes less the wanted elongation and is 0 exactly when the planet is on the sun's meridian turned by it. The place used for stations is the planet's apparent equatorial place. Latitude (declination) differences, distances and light times are those of the same places.", "quantifier": "all instants, bodies, coordinates returned by the series, nutations, obliquities, light times and wanted elongations (exact arithmetic; places not exactly at a pole)", "why_tests_cant": "a continuum of configurations; a sign or a wrong epoch changes results by little and only at some configurations", "anchors": ["eph/eph.cpp: xingMP, xingSP, xingLiu0", "eph/eph0.cpp: h2g, llrConv, rad2rrad"]}
{"id": "C109", "title": "A temporary buffer is of the first size the memory manager grants, and its objects and its block have one life", "statement": "get_temporary_buffer(n) and temporary_buffer over a range of n > 0 elements ask for min(n, INT_MAX/sizeof(T)) elements, then for half as many, and so on, and take the first block granted: the length is never more than asked for nor than INT_MAX bytes, and the pointer is null with length 0 exactly when every request was refused. requested_size() is n. Every slot of the buffer holds an object (for a type without a trivial constructor), the destructor destroys each once and gives the block back; releasing what was got restores the memory.", "quantifier": "all memory managers (any answers to any sequence of requests), element sizes and lengths; copy constructors that do not throw (with the defects for empty ranges and throwing copies)", "why_tests_cant": "depends on the failures of malloc, which no test controls, and on all sizes", "anchors": ["mylib/mystl/memory.h: get_buffer_helper, get_temporary_buffer, release_temporary_buffer, temporary_buffer", "mylib/mystl/uninitialized.h: uninitialized_fill_n"]}
{"id": "C110", "title": "Several deques: copies are equal and independent, moves and swaps pass the elements on", "statement": "In any program with any number of deques, made, copied, moved, assigned, list-assigned, swapped, destroyed and changed by any operations in any order, every deque holds exactly the sequence it should and nothing undefined happens: a copy has the same elements and later changes of either do not reach the other, a move gives the sequence to the target, a swap exchanges, self-assignment and self-swap change nothing. A deque moved from can be destroyed, list-assigned, swapped and moved. (Defects: move assignment releases neither the map nor the last buffer of its target; assigning a deque to one moved from writes into the new owner.)", "quantifier": "all programs (sequences of operations on any number of deque variables), element sizes and contents; for element types with a destructor without partial range erasure (C104)", "why_tests_cant": "histories over several objects are unbounded", "anchors": ["mylib/mystl/deque.h: deque(const deque&), deque(deque&&), operator=, swap, ~deque"]}
{"id": "C111", "title": "The text of the sun-moon panel shows under every label the quantity it names", "statement": "MSC::toStr(fs) returns exactly the panel: rules and labels in order, each followed by its quantity, the moon's first and the sun's second (solar times as times of day, equation of time in minutes and seconds, illuminated part in percent, longitudes, latitudes, declinations, azimuths, altitudes, hour angles in degrees, right ascensions in hours, distances, radii); with fs also dynamical date and time, delta T, nutations in arc seconds and the obliquity. Every quantity is within half a unit of the last place printed of the value computed.", "quantifier": "all values of the panel (doubles) within the range of their formats (angles up to 17 rad, numbers outside the defects of C29/C35), both values of fs", "why_tests_cant": "the rounding must be right for every value; a swapped pair of columns shows in no type", "anchors": ["eph/eph_msc.cpp: MSC::toStr", "mylib/tool.cpp: timeStr, rad2str, m2fm, JD2str"]}
{"id": "C112", "title": "Hash functions: equal keys hash alike, and keys of one type spread", "statement": "hash<T> of integers, characters, bool and pointers is injective on the type; hash<float> and hash<double> give equal values for numbers that compare equal (also 0 and -0), and different values for numbers that differ in one byte; bitwise_hash of two blocks that differ in one byte differs. (hash<long double> hashes the padding too: equal numbers may hash differently.)", "quantifier": "all values of every type, all blocks of memory of any length", "why_tests_cant": "the key space is 2^64; a hash table silently loses keys when equal keys hash differently", "anchors": ["mylib/mystl/functional.h: hash, bitwise_hash"]}
{"id": "C113", "title": "Construction in raw memory makes all elements or none", "statement": "Without an exception, uninitialized_copy, _copy_n, _fill, _fill_n, _move and _move_n make exactly the elements asked for in the raw target, leave the source as a copy or move does and all other memory as it was, and return the end of the target; a vector made so has the elements asked for, and its destructor undoes it. If element k throws, the fills and moves destroy all made so far, and the target is raw again; the exception reaches the caller only from _move_n. (Defects: the copies run the destructor in the cell whose construction failed; vector(n, value) ends normally with a vector of n objects that do not exist.)", "quantifier": "all lengths, values, memories, all types (trivial assignment and destructor or not), every element at which the construction may throw", "why_tests_cant": "tests would have to throw at every element and to see destructors of objects that do not exist", "anchors": ["mylib/mystl/uninitialized.h", "mylib/mystl/construct.h: construct, destroy", "mylib/mystl/vector.h: fill_init, range_init, destroy_and_recover"]}
{"id": "C114", "title": "distance, advance and reverse iterators", "statement": "distance(first, last) is the number of elements of the range for every iterator category; advance(it, n) moves by n elements in either direction and leaves the sequence only if n asks for it (an iterator that cannot go back must not get n < 0); a reverse iterator does for every operator what an iterator into the reversed sequence does, with rbegin as beginning and rend as end, and the loop from rbegin to rend reads every element once, the last first.", "quantifier": "all sequences of any length, all iterators into them, all n, all three categories the code tells apart", "why_tests_cant": "off-by-one in one of 17 operators shows only for the right positions", "anchors": ["mylib/mystl/iterator.h: distance, advance, reverse_iterator", "mylib/mystl/vector.h: rbegin, rend", "mylib/mystl/deque.h", "mylib/mystl/list.h", "mylib/mystl/rb_tree.h"]}
{"id": "C115", "title": "The point of greatest eclipse at sunrise or sunset", "statement": "RS_GS::mDian answers true exactly when the second approximation finds a point of the limb of the Earth abeam of the shadow's motion over the ground, on the asked side, at most r from the centre of the shadow; then it appends longitude and latitude of just that point to the list, else it leaves the list alone.", "quantifier": "all positions and velocities of the shadow (not at rest over the ground), both sides, all radii, axes and lists", "why_tests_cant": "a missing point or a wrong side occurs only for particular geometries", "anchors": ["eph/eph_rsgs.cpp: RS_GS::mDian, RS_GS::push, RS_GS::Vxy, RS_GS::bse2db", "eph/eph.cpp: lineOvl"]}
{"id": "C116", "title": "Programs with several maps", "statement": "A program that makes maps, copies, moves, copy-assigns, move-assigns, swaps and destroys them and runs any operation on each has no undefined behaviour and shows at every statement what the same program shows when each map is a list of pairs: maps never share a node, memory that belonged to others is left alone, and no element outlives the last map that holds it.", "quantifier": "all programs in which a map moved from is only moved, swapped, move-assigned to or destroyed; all keys, strict weak orders, allocators and memories", "why_tests_cant": "aliasing between two maps shows only after particular sequences of copies, moves and changes", "anchors": ["mylib/mystl/rb_tree.h: rb_tree copy and move constructors, operator=, swap, clear, reset", "mylib/mystl/map.h: map"]}
