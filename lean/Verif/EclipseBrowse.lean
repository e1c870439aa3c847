import Verif.EclipseTable

/-!
# The eclipse browser — /repo/eph/eph_show.cpp:154-226

Exact arithmetic on `ℝ`.  Parameters: the ephemeris of `RS_GS::init` (`Eph`), `feature` as a function of the table (it replaces its argument by the table's instant,
eph_rsgs.cpp:176), the text of one eclipse and of one row of the list as functions of the features.
-/

namespace Verif.Geom

open Real

/-- what the panel takes from `_FEATURE`: the type, the full text (lines 180-203), the row of the list (lines 217-223) -/
structure Shown where
  lx : String
  text : String
  row : String

/-- the instant kept from call to call — line 157 — and the table of `RS_GS` -/
structure Browser where
  jd : ℝ
  tab : RsTab

/-- before the first call — line 157, eph_rsgs.cpp:7-8 -/
noncomputable def Browser.fresh : Browser := ⟨2454679.926741 - 2451545, RsTab.fresh⟩

/-- `MS_aLon_t2(int2((jd+8)/29.5306)*2π)*36525`, the new moon of an instant — line 163 -/
noncomputable def toMoon (e : Eph) (jd : ℝ) : ℝ := e.newMoon ⌊(jd + 8) / 29.5306⌋

/-- one row of the list and the step to the next — lines 212-224 -/
noncomputable def listRow (e : Eph) (feat : RsTab → Shown) (step : ℝ) (b : Browser × String) : Browser × String :=
  let tab := b.1.tab.init e b.1.jd 3
  let r := feat tab
  (⟨b.1.jd + step, tab⟩, if r.lx = "N" then b.2 else b.2 ++ r.row)

/-- `rs2_calc(fs, jd0, step)` — eph_show.cpp:154-226.  The result `none`: control leaves a function with a result without returning one (undefined behaviour), `fs` > 5.  `head` is
the heading of the list (line 211). -/
noncomputable def rs2 (e : Eph) (feat : RsTab → Shown) (head : String) (b : Browser) (fs : ℕ) (jd0 step : ℝ) : Option String × Browser :=
  if fs = 0 then (some "", b) else
  let jd := if fs = 1 then jd0 else b.jd
  let jd := if fs = 3 then jd - step else jd
  let jd := if fs = 4 then jd + step else jd
  let jd := toMoon e jd
  if fs = 1 ∨ fs = 2 ∨ fs = 3 ∨ fs = 4 then
    let tab := b.tab.init e jd 7
    let r := feat tab
    (some (if r.lx = "N" then "无日食" else r.text), ⟨jd, tab⟩)
  else if fs = 5 then
    let out := (listRow e feat step)^[100] (⟨jd, b.tab⟩, head)
    (some out.2, out.1)
  else (none, ⟨jd, b.tab⟩)

/-- the names of the types — line 167; a missing key gives the empty string (`map::operator[]`) -/
def typeName : String → String
  | "T" => "全食"
  | "A" => "环食"
  | "P" => "偏食"
  | "T0" => "无中心全食"
  | "T1" => "部分本影有中心全食"
  | "A0" => "无中心环食"
  | "A1" => "部分伪本影有中心全食"
  | "H" => "全环全"
  | "H2" => "全全环"
  | "H3" => "环全全"
  | _ => ""

end Verif.Geom
