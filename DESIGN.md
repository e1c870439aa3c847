# Formal model of sxwnl-cpp in Lean 4

## 1. Trusted base

* **Lean 4.33.0's kernel.**  Every theorem depends on at most `propext`, `Classical.choice`,
  `Quot.sound` (Lean's three standard axioms).  No axiom is added; no compiled evaluation is
  trusted (`decide +kernel` is used for whole finite tables: the kernel itself evaluates).
* **The reading of the C++ source.**  Nothing is compiled or executed.  Each definition of the
  model cites the file and lines of /repo it models, and says where it simplifies.  The large tables
  (eras, festivals, month corrections, cities, powers of ten) were transcribed by the scripts
  `tools/gen_*.py` from /repo; the scripts are not trusted by the proofs but are trusted to have
  copied the right constants.
* **The C++ abstract machine as modelled.**  LP64: 32-bit `int`, 64-bit `long`/`size_t`,
  two's complement, unsigned wrap-around.  Signed overflow, out-of-range float→int conversion, and reads or
  writes out of bounds or through a dangling pointer are *undefined*: the outcome `none` (a
  theorem saying "the result is `some …`" therefore also says no undefined operation happens).
* **Floating point.**  Two separate readings, and each theorem says which:
  * *doubles*: `Verif/Fp.lean`, `rnd : ℚ → ℚ`, IEEE-754 binary64 round-to-nearest-even with gradual
    underflow, evaluated strictly (no FMA contraction, no x87 excess precision).  The exponent is
    unbounded above, so overflow to ∞ must be (and is) excluded by range hypotheses.  NaN and −0 are not modelled.
  * *exact arithmetic*: Mathlib's `ℝ` with the true `sin`, `cos`, `atan2`, … in place of libm
    (`Geom`, eclipses, rise/set, series, precession).  Rounding is not modelled there.
* **Specified, not modelled:** `std::string`, `malloc`/`free`, `strtol` + `errno`, `strstr`, iostreams.
  The series of the Earth, the moon and the nutation (`eph_data.h`) are transcribed (`EphTables`, generated by `tools/gen_eph.py`)
  and used from C74 on; the series of the other planets are parameters, only the lengths and index entries of their tables are transcribed.
* **Not modelled at all:** `main.cpp`/menus/terminal IO, `eph_msc.cpp` printing, `eph_yspl.cpp`/
  `eph_rspl.cpp` text layout, the astrophysical accuracy of the theories, exceptions
  thrown by element types or by allocation, concurrency (the program is single-threaded; all static caches are modelled
  as explicit state).

## 2. Layout

`lean/Verif/`: one model file per source area (`Calendar`, `LunarYear`, `RbTree`, …), small
separate specification files (`*Spec.lean`), helper lemma files, and the property files
`Props/*.lean` holding the property theorems `cNN_*` with a non-vacuity example beside them.
`MANIFEST.json` maps properties to theorems (generated by `tools/manifest.py` from `tools/claims.txt`;
`properties.jsonl` from `tools/props.py`).  `seeded/LOG.jsonl` records the wrong programs tried.

Reading rule for statements: the specification files never mention the model; a statement mentions
only the model's entry point (the C++ function), the specification, and plain Lean/Mathlib notions.

## 3. Per property: what is modelled, how it is proved

| Id | Model (source) | Specification and proof |
|----|----|----|
| C01–C05 | `Calendar` = tool.cpp `toJD`, `setFromJD`, `DD2str`… in doubles, int overflow → undefined | `CalendarSpec`: civil dates (Julian/Gregorian switch) with `next`.  `CalendarFp` proves every double operation exact or bounded, `CalendarInt` the integer-division identities; day-exactness by `next` + anchor (induction over all dates). |
| C06–C07 | `DateText` = `DD2str`, `timeStr` | `ClockSpec`: nearest second of the day.  The 24:00:00 defect is a theorem, the rest `_partial`. |
| C08–C09 | `MonthSheet` = Gregorian half of `yueLiCalc` | loop = list comprehension over the civil days of the month; weekday step + anchor. |
| C10 | `Hijri` = `getHuiLi`, doubles | `HijriSpec`: tabular calendar with `next`; step + anchor. |
| C11–C12 | `GanZhi` = day index and `mingLiBaZi` | `GanZhiSpec`: cycle of 60, five-tiger/five-rat rules. |
| C13 | `Era`, `EraData` = `getNH` and its table | interval splitting of the whole table; every int year. |
| C14–C17 | `Festival*` = `getDayName`, `getDayName2` | `FestivalSpec`, `FestivalSpec2`: n-th weekday, Geng days counted, etc. |
| C18–C21 | `LunarYear` = `calcY` (new moons/terms calculator as parameter) and lunar half of `yueLiCalc` with its cached tables as state | `LunarSpec`: leap-month rule, month of a day, term of a day; history theorem over arbitrary call sequences. C60 (`Props/LunarSheet`) composes them: `RecordOK` says everything a day's record must say, for every day of every sheet after every history. |
| C22–C24 | `SsqData`, `SsqCalc` = `jieya`, `calc`, tables | `SsqSpec`; whole-table kernel evaluation, lifted; double index arithmetic. |
| C25 | `DeltaT` = `dt_ext`, `dt_calc` | row lookup, error bound, joins. |
| C26–C30 | `Itoa`, `NumText`, `Dtoa`, `Grisu*` = `itoa.h`, `dtoa_milo.h`, `to_str`, `my_stoi` | buffers as lists of bytes, 32/64-bit wrap; `DtoaSpec`: correctly rounded decimals; strtol by specification with `errno` state. |
| C31–C33 | `StrOps` = `string_replace`, `split`, `join`, `fill_str` | `StrSpec`: occurrences, concatenation. |
| C34 | `AngleText` = `rad2strE`, `rad2str2` (doubles) | value of the printed text against the true π. |
| C35 | `MinSec` = `m2fm` (doubles) | printed value; defects as theorems. |
| C36 | `AngleNorm` = `rad2mrad`, `rad2rrad` (doubles and ℝ) | unique representative. |
| C37–C41, C52 | `Geom` = coordinate conversions, `lineEll`, `lineEar2`, `cirOvl`, `lineOvl`, `lineT`, Bessel (ℝ) | stated in vectors / quadratic equations; trigonometric identities. |
| C42 | `LunarEclipse` = `ysPL::lecMax` (ℝ; ephemeris a parameter) | classification by distances; contacts by quadratic. |
| C43, C54 | `SolarEclipse`, `EclipseTable` = `ecFast`, `rsGS::init/chazhi/feature`, `rs_search` (ℝ) | shadow cones vs. ellipsoid; interpolation polynomial; history. |
| C44 | `Vector` = mystl `vector` with raw memory: cells, capacity, live/dead storage | `VectorSpec`: pair of lists; refinement over every history. |
| C45 | `RbTree`, `RbClient`, `RbCopy` = mystl `rb_tree.h`/`map.h`, pointer-level heap | `MapSpec`: sorted association list; red-black invariant in `RbSpec`; refinement over every history of client operations. |
| C46 | `Sort` = `heap_algo.h`, `partial_sort`, `sort` | sorted + permutation; exact outcome of the defective `sort`. |
| C47–C48 | `Search`, `SetAlgo` | `OrderSpec.StrictWeak`; boundary / multiset counts. |
| C49, C55 | `RiseSet` = `SZJ::St`, `Mt`-free part, `calcRTS`, `getH`, `mod2` (ℝ) | history of the static table; uniform motion. |
| C50 | `City`, `CityIndex`, `CityData` = `GeographicalPosition` and table | every name of the table; strstr by specification. |
| C51 | `Series` = `XL0_calc`, `XL1_calc`, `pluto_coord`, `prece` | index ranges + the sum in closed form. |
| C53 | `Geom.moonIll` (doubles) | range. |
| C56–C58 | `Precession` = `CDllr`, `HDllr`, `parallax`, `nutation` | rotations invert; parallax vector; sums over terms. |
| C59 | `Grisu`, `GrisuTable`, `GrisuDigits`, `GrisuBound`, `DoubleSpec` = `DiyFp`, `GetCachedPower`, `DigitGen`, `GrisuRound`, `Grisu2` with 64-bit wrap-around | error bounds of the cached powers (87 kernel-checked entries), digit loop invariants, interval contained in the rounding interval. |
| C61 | `SsqCalc.ssqCalc` plugged into `LunarYear` | `MeanEraSpec`: moments of the mean new moons and terms row by row.  `Props/LunarEra` finds the row and cell of every argument (doubles), `Props/LunarMean` shows the tables satisfy the hypotheses of `c21_sheet_historic` (linear arithmetic row by row), then applies it. |
| C62 | `MonthEvents` = the two `do … while` searches of `yueLiCalc` (doubles; ephemeris a parameter) | `MonthEventsSpec`: the record of each event, unchanged days; induction over the events left, error of the accumulated longitude. |
| C63 | `YearText` = `nianLiSTR`, `so_accurate2`, `qi_accurate2` (doubles, byte lengths; ephemeris a parameter) | `YearTextSpec`: lines, entries, dates, moments; the tables by C18–C21, C60, C61; the ephemeris argument by error bounds and the one-step correction. |
| C64 | `Permute` = `reverse`, `swap_ranges`, `rotate` (three iterator categories), `rgcd`; arrays are lists, out-of-range access is `none` | `pre ++ mid ++ post` before and after; induction; for random access the orbit of each residue class modulo gcd is followed (`Props/RotateCycle`). |
| C65 | `Permute.nextPermutation`, `prevPermutation` | `PermuteSpec.LexLt`, next/last/first arrangement; counting of predicates that respect equivalence. |
| C66 | `InplaceMerge` = copy, `rotate_adaptive`, `merge_backward`, `merge_adaptive`, `merge_without_buffer`; buffer = array of any size and content or none | `PermuteSpec.StableMerge`; both recursions equal Lean's `List.merge` by cutting both parts at corresponding places. |
| C67 | `NthElement` = `median` (as a cell), `unchecked_partition` with the pivot a reference into the array, the loop with a bound on its rounds | termination and permutation by a measure `last - first`; the sentinel argument survives the aliasing because the cell of the pivot is only ever overwritten by an element on the right side; witnesses for the two defects. |
| C68 | `Scan` = `remove*`, `unique*`, `adjacent_find`, `partition*`; source and destination in one array | `ScanSpec`: `filter`, `collapse` (runs to their first element), `Overwritten`; induction on the source list. |
| C69 | `Scan.search`, `searchN`, `findEndFwd`, `findEndBi` (reverse iterators = positions in the reversed array) | `ScanSpec.OccursAt`; the loop invariant is a matched prefix and no occurrence before; a product measure for termination. |
| C70 | `Scan.isPermutation` | `∃ l, l.Perm X ∧ Match pred l Y`; counting classes, `perm_of_counts`. |
| C71 | `SolarLocal` = `RS_PL::secMax`, `lineT`, `sunShengJ` (ℝ), the ephemeris as `PlEnv` | discs in the plane; stage-by-stage closed form `secMax_fields`; scan invariant `probe_fold`; uniform motion by the quadratic of C41. |
| C72 | `SkyPanel` = `MSC::calc`, `lineEar` (ℝ), the ephemeris as `SkyEnv` | the frame up–south–west at the site, `site`, `OnEll`, `onLine`; composition of C38 (turns), C57 (parallax), C39 (line and ellipsoid); the parametric latitude of the point found. |
| C73 | `SkyPanel.mqc` (ℝ) | difference of cotangents, bounds on sine and on the argument. |
| C74 | `Longitude` = `XL0_calc`, `nutationLon2`, `S_aLon`, `E_v`, `S_aLon_t` (ℝ), `EphTables` = the series of eph_data.h as integers (generated by tools/gen_eph.py) | calculus of `Bd`/`Lip`/`Near` (bounded, bounded increments, increments close to a given speed) summed over the table by kernel evaluation; Newton steps; intermediate value theorem. |
| C75 | `Longitude` = `XL1_calc`, `MS_aLon`, `M_v`, `MS_aLon_t` (ℝ) | the same with the 627 terms of the moon. |
| C76 | `Longitude.sALonT2`, `HighTime.qiHigh` (ℝ), `dt_T` a parameter | error of the two corrections (`pS_step`), `fmod` at midnight (`day_kept`). |
| C77 | `Longitude.msALonT2`, `HighTime.soHigh` (ℝ), `dt_T` a parameter | the low-precision moon as a perturbation of the full series (`msALonT2_near4`), `day_kept`. |
| C78 | `Longitude.msALon`, `HighTime.soHigh` (ℝ), `DeltaTReal` = `dt_calc`, `dt_T` (ℝ) | the change of every periodic term over the fixed spans of 29 d 6 min and 29 d 23 h 54 min is at most `A·min(2, |ωΔ-2πk|)`, summed by kernel evaluation; the greatest term and its harmonic are treated together (`pair_30`); monotonicity. |
| C79 | `ModernSpec` (days of terms and new moons, what is assumed of the double evaluation), `SsqCalc`, `LunarYear`, `HighTime`, `DeltaTReal` | `c21_sheet` with its four hypotheses proved for the program's own calculator: the angle asked for is found from the search window (`soArg_form`, `qiArg_form`), the day from C76/C77, the month lengths from C78, the windows of ±5 and 18 days from the mean motion bounds. |
| C80 | `EqTime` (`hcjj`, `pty_zty`, `pty_zty2`, `trueTime` of `mingLiBaZi`) over `ℝ`, with `Longitude`, `Geom`, `DeltaTReal` | the rotated direction is written along and across the direction of longitude, so right ascension is longitude plus an arctangent (`ra_eq`); that arctangent is bounded and Lipschitz in longitude, obliquity and latitude; the longitude against the mean motion is bounded and Lipschitz from the sums of amplitudes and speeds of the table; then the unique representative of the difference in (−π, π] |
| C81 | `ListModel` = `mystl::list` on a heap of cells (every link, unlink, allocation, free and size update), `ListClient` = calls on numbered objects | `ListSpec`: a list is a sequence of (identity, value), each call relates sequences; the heap refines it through rings of nodes (`Rep`), ownership of disjoint nodes (`Inv`), one lemma per call (`step_ok`), induction over the history |
| C82 | `SunTimes` = `Scoord` (series, aberration, obliquity, sidereal time `pGST`) feeding `St` of `RiseSet`, and `Mt` | estimate + one correction = within K²A/sv²(sv−K) of the exact root (`refine_near`: Lipschitz bound, intermediate value theorem); hour angle rate from the series bounds of C80, rate of the wanted hour angle by the mean value theorem on arccos; uniqueness from the same bounds |
| C83 | `EclipseLimits` = `Vxy`, `nanbei` (loop with its early exit), `bse2db`, `bseXY2db`, `qrd`, `jieX3` over `RsState`, `lineEar2` | loop invariant (`Square`: unit direction, square to the relative ground velocity), lines parametrised by height, `lineEll` nearest point = highest point because the Earth lies below the moon; ellipsoid point = place of its geodetic latitude; Taylor bound for the limb radius |
| C84 | `EclipseLimits` = `zb0`, `zbXY`, `p2p`, `pp0`, `nbj` over `lineEar`, `parallax` | centres of similitude of two spheres; topocentric vectors are positive multiples of each other on the axis; `c72_line`, `parallax` of C57 |
| C85 | `PriorityQueue` over the heap functions of `Sort` | simulation: each queue is a heap (`c46_*`) whose elements form the specified multiset |
| C86 | `Numeric`: index ranges of one array, checked accesses | loop invariants: everything not yet read is still original |
| C87 | `StaticArray`: addresses, elements, the two stored iterators | simulation by functions from indexes to values; ownership of iterators as an invariant of objects not copied |
| C88 | `LunarEclipse` as for C42, the ephemeris any function with bounded change of velocity and radius | dimensionless path along/across the measured velocity; Lipschitz bounds for the two rounds, intermediate value theorem for the true contact, monotonicity of the gap for its uniqueness |
| C89 | `HashTable`: buckets as chains of (address, value) nodes, an allocator recording live addresses; load factor comparisons are parameters | `HashSpec`: plain list with one element per key; invariant (right bucket, distinct live addresses, size), refinement by induction on the history |
| C90 | `HashTable` as above | `HashMultiSpec`: plain list as a multiset; additional invariant that equal keys are adjacent in a chain |
| C91 | `EclipseSearch` = `rs_search` with the clock of `ecFast` (eph.cpp:386-426) and the table kept by `RS_GS::init` | the number of the new moon grows by one each round (bounds of the series against the mean new moon); the hour by comparing the 18 terms with the moon's table and one Newton step |
| C92 | `Apsides` = eph0.cpp:666-693, 719-747, eph.cpp:31-64, 85-129 over ℝ with the curve a parameter; the loops of test1.cpp as `walk` | Taylor with a Lipschitz second derivative bounds what one three-point round leaves (`left`) and the value (`off`); three or four rounds composed; `nearest` of result + period is the next mean event, induction on the list |
| C93 | the same file, eph0.cpp:695-717, eph.cpp:93-94, 147-215 | one correction with a speed wrong by κ leaves `rest`; the frozen speed of the last round is wrong by κ plus what the speed changed; mean rounds: contraction by q, `rad2rrad` picks the right turn below half a turn |
| C94 | `EclipseBrowse` = eph_show.cpp:154-234, the static variables as state | the state is at a new moon k (`At`); one call by cases, the list by induction on its rows, sessions by induction |
| C95 | `DayTables` = eph_show.cpp:235-300 in doubles | error bounds of the three additions, then C06 and C07; the days of the table are `next` iterated from 1 January, each valid day of the year is one of them |
| C96 | `PlanetPanel` = eph.cpp:215-291 over ℝ | the last lines are those of `MSC` (`rrad_mrad`), so C72's `c72_body`; `h2g` is a vector difference (C37); light time by the triangle inequality |
| C97 | `EclipseReport` = eph_show.cpp:15-116 in doubles | error bounds of the conversions, then C06; the timetable by induction on the list; the limits by rational bounds of π |
| C98 | `Deque.lean`: buffers, map, iterators with cached buffer, cells with or without an object, faults as `none` | `DequeSpec.lean` gives the list semantics; invariant `Inv` (cells hold the list, pointers live and distinct, other cells raw), refinement step by step, induction over the history (`Props/Deque.lean`) |
| C99 | same model with the list of live buffers | invariant `Tight` (live buffers = spanned slots), position modulo B tracked through reallocations |
| C100 | `queue`/`stack` members as the deque calls they make | refinement to FIFO/LIFO lists by induction over the history |
| C101 | the `_multi` functions of `rb_tree` over the heap model of C45 | refinement: red-black tree ↔ weakly sorted list, induction over the history |
| C102 | `so_low`, `qi_low` and the two index formulas of `calc` over ℝ | Lipschitz bounds of cos and sin after removing 2π per lunation; rational bounds of π |
| C103 | `CopyAlgo` = algobase.h over a memory of positions; overlap allowed | induction over the length, generalising over the memory; mod arithmetic for the overlapping case |
| C104 | `DequeBulk` = deque.h insert/erase/assign/resize on ranges over the memory of C98 | every loop described by its effect on the function from cell numbers to contents; final function compared with that of the new sequence |
| C105 | `RangeAlgo` = algo.h scans, transforms, shuffles, partial_sort_copy on lists with positions | loop inductions; the shuffle's last exchange is undone to find the one sequence of choices; heap lemmas of C46 for partial_sort_copy |
| C106 | `AutoPtr` = memory.h auto_ptr: objects alive, variables and their pointers; `AutoPtrSpec`: an owner for every object | refinement: `get()` is the object owned; induction over histories |
| C107 | `Compare` = operators of util.h, vector.h, deque.h, list.h, rb_tree.h over `CopyAlgo` | loop inductions; dictionary order is a strict weak order by induction on three lists |
| C108 | `SkyDiff` = eph.cpp xingMP, xingSP, xingLiu0 over ℝ with the coordinates as parameters | geometry: the places as rotated vectors; equal longitudes iff one meridian |
| C109 | `TempBuffer` = memory.h temporary buffers over an arbitrary `malloc`, uninitialized.h fill_n | induction on the length asked for (halving); blocks and objects counted exactly |
| C110 | `DequeMove` = deque.h copies, moves, assignments, swap over any number of variables; `DequeMoveSpec`: variables with sequences | refinement, induction over programs, on top of the invariant of C98/C104 |
| C111 | `SkyText` = eph_msc.cpp MSC::toStr over doubles, with the models of timeStr, rad2str, m2fm, to_str, JD2str | specification: a list of labels and quantities with their formats; each piece from C07, C29, C34, C35, C06 |
| C112 | `HashFun` = functional.h bitwise_hash (FNV-1a, 64 bits) and the specialisations of hash | specification: ranges of the types, IEEE equality of bit patterns; a step of FNV is a bijection of the state because the prime has an inverse |
| C113 | `Uninit` = uninitialized.h (all six, both branches), construct.h, and fill_init, range_init, destroy_and_recover of vector.h over a memory of cells that hold an object or not | specification: which cells hold which objects; the loops after t elements are an explicit memory; reading, destroying or overwriting the wrong cell is undefined |
| C114 | `Iterators` = iterator.h distance, advance (with their dispatch), all operators of reverse_iterator; rbegin and rend of the containers | specification: the mirror image of a position in the reversed list; each operator commutes with it |
| C115 | `LimbPoint` = eph_rsgs.cpp:290-295, 329-353 over ℝ | specification: points of the limb abeam of the motion over the ground, the outmost of them on a side; from C40 (lineOvl) and C83 (bse2db at the limb) |
| C116 | `RbWorld` = rb_tree.h:960-1030, 1389-1397, 1462-1466 over the heap of C45 | specification: each variable a list of pairs, or moved from (`Step`, `Run`); invariant: the addresses of the maps are pairwise disjoint, all else in the heap unchanged |

Statuses and gaps per property are in `MANIFEST.json` notes.

## 4. Where the unchanged code violates a property (all are theorems unless marked “noted”)

* C01: `toJD` miscounts −4716-01-01…02-29 and overflows `int` near year 5.8 million.
* C06/C07: the last half second of a day prints `24:00:00`.
* C11: day index below −8999994 reads out of bounds.
* C13: era table has holes −1989…−1987 and 177.
* C16: 腊八节 is never marked.
* C27/C28: `my_stoi` keeps a stale `errno`, truncates 64→32 bits.
* C29: `PrettifyRoundUP` carry bug: `to_str(19.96,1) = "110.0"`.
* C59: `DigitGen` indexes `kPow10` (10 entries) up to 16, e.g. for 1/3; the digits depend on what lies behind the table (`1+2^-52` prints …02 or …03), reading back is not affected.
* C30/C31/C32: negative pad lengths undefined, empty pattern diverges, two-character separators throw.
* C35: `m2fm(59.996)` prints `0'150.00"`.
* C36: a tiny negative angle normalises to exactly 2π in doubles.
* C41: contact time 0 is indistinguishable from “no contact”.
* C43: the labels of types H and A1 are wrong; `lx=="NN"` in `rs_search` is dead code; C54: `chazhi` before `init` divides by zero.
* C44: `push_back(v[i])` at full capacity (non-trivial T) and aliasing `emplace` read a moved-from/destroyed element.
* C45: `at()` of an absent key returns another key's value; a duplicate insert may return an iterator to another element; a moved-from map can only be destroyed; destructor leaks the header.
* C46: `sort` loses elements for more than 128 elements.  C47: `binary_search(comp)` ignores `comp`; `equal_range` of an absent key is `(last,last)`.
* C49: `calcRTS` updates a copy: moon times of an earlier call persist; n > 31 is out of bounds.
* C50: 86 records are shadowed by substring matches.
* C51: `prece` overflows a 4-byte buffer for names of 3 or more characters.
* C58: the nutation period filter uses the wrong sign of the node rate.
* C67: `nth_element` keeps a reference to the pivot inside the range it partitions (`0 4 3 1 2 5`, nth = 2 leaves 3 before 2); with a comparison object the pivot is chosen by `<` and the call may never return.
* C71: at a site where the sun does not cross the horizon `sunShengJ` returns 0 twice and `secMax` erases every contact time, also in permanent daylight; an eclipse wholly below the horizon keeps its type, magnitude and duration.
* C73: `MQC` is negative within about 0.0018 rad of the zenith, and since it is only applied above the horizon the altitude shown jumps by 28.5′ at the horizon.
* C75: the moon's longitude jumps back by 0.866″ at the year 3000, because the fit `-0.866+1.43·tx+0.054·tx²` of eph0.cpp is added only for `tx>0`; `M_v`'s term `5·sin(2.32−7700.3895t)` has the wrong sign of the phase against the table (the bound of 78 s includes it).
* C81: a range splice within one list is a silent no-op; `x.remove(x.front())` compares with a freed element; a moved-from list has a null node and even assigning to it dereferences it; self move-assignment empties the list.
* C83 (noted): `nanbei` uses the lunar radius `cs_k` at the moon for the umbral limits while the umbral radius uses `cs_k2` (25 m, inside the bound of `c83_umbra`); `qrd` turns the contact point with the already changed `x`. C84 (noted): after a round without solution `p2p` continues from longitude and latitude 100 rad.
* C85 (noted): `operator==`/`!=` of priority queues taking non-const references (queue.h:340-352) call themselves and never return; self move-assignment empties a queue.
* C87: the implicit copy constructor of `static_array` copies `_begin`/`_end`, so a copy iterates over the object it was copied from, or over a dead one (`c87_copy_iterates_source`); the list constructor ignores `N` (`c87_long_list`).
* C88: for a grazing lunar eclipse the second `lineT` may find no solution; its marker 0 is then stored as the time of contact although the eclipse is listed (`c88_grazing_zero`).
* C89: a moved-from hash table has no buckets and every use divides by zero (`c89_moved_from`); `replace_bucket` copies all nodes and never frees the old ones (`c89_rebuild_leaks`); `emplace` (also `insert(value&&)`) of a key already present leaks the new node (`c89_emplace_leaks`). Noted: `operator==` of `unordered_map` calls `equal_range_unique` with a table and does not compile when used; `equal_to_multi` uses `p1.last`; `copy_init` swallows exceptions; `reserve` with load factor 0 divides by zero in float.
* C90: `erase(key)` of the multi containers erases the range and then measures the distance between its iterators, following a freed node (`c90_erase_key_undefined`).
* C92: `daJu` with a planet other than Mercury or Venus has the period 0 and converts an infinite or undefined quotient to `int` (eph.cpp:33-50); `xingLiu` and `xingHR` read `cs_xxHH[xt - 1]` unchecked. Not proved; the model has only the two inner planets, and planets 1 to 8.
* C94: `rs2_calc` in mode 5 (the list) moves its static instant a hundred lunations on (`c94_list_moves`), a mode above 5 runs off the end of a function with a result (`c94_no_result`), and type A1 is named 全食 (`c94_names`).
* C95: `shengjiang2` prints `JD2str(t).substr(1, 14)` for the rising: minutes, seconds and the first column of the year (the sign of years before -999) are lost (`c95_rise_column_short`).
* C96: `xingX` with a number outside 0...10 reads `z` and `rc` unset (`c96_unset`).
* C97: the timetables of `rysCalc` use 0 for a contact that does not happen, so the instant J2000 itself is not shown (`c97_noon_lost`); the label of Beijing time is " UTC".
* C99: `~deque` releases only the buffer of the first element and the unused ones: every other buffer the elements spread over is leaked (`c99_leak`: n / B buffers after n `push_back`s). `clear` keeps them all (`c99_clear`) and later pushes overwrite their pointers.
* C99: constructing a deque from input iterators first sets the size to n and then appends n elements; the first n are never constructed (`c99_input`).
* Not modelled, read in the source: move assignment leaks the old map; `require_capacity` overwrites spare buffer pointers.
* C101: a hint equal to `begin()` is ignored for a key equal to the first one: the new element goes behind all equal ones (`c101_begin_hint`; the standard asks for the place before the hint).
* C103: element-wise `copy` to a destination inside the source repeats elements where the pointer version copies rightly (behaviour differs by element type); moving a range onto itself empties it.
* C104: `erase(first, last)`, `resize` and `assign` that shrink destroy a raw pointer range `[begin.cur, new_begin.cur)` across buffers: undefined for types with a destructor (`c104_erase_undefined`, `c104_erase_last`).
* C107: `<` of pairs asks `==` of the first components; if that is finer than "neither is less" (`c107_pair_defect`), `<` of pairs is no strict weak order and pairs must not be used as keys or sorted.
* C109: `temporary_buffer` over an empty range frees a pointer that was never set (`c109_empty_defect`; its two users leave before); when copying an element throws, `uninitialized_fill_n` swallows the exception and the destructor destroys objects that do not exist (`c109_throw_defect`).
* C110: move assignment of deques never releases the target's map and last buffer (`c110_move_leak`); a deque moved from keeps its size and iterators, and assigning to it overwrites the elements of the new owner (`c110_moved_assign`).
* C112: `hash<long double>` hashes the 6 bytes of padding too; equal numbers may hash differently (`c112_long_double_defect`).
* C113: `uninitialized_copy(_n)` destroys the wrong cells when a copy throws (`c113_copy_throw_defect`), and all but `uninitialized_move_n` swallow the exception, so that `vector(n, value)` yields a vector of objects that do not exist (`c113_vector_defect`).
* C116: `x = std::move(x)` for maps destroys all elements and leaves `x` without a header (`c116_self_move`).
