import Mathlib.Data.Int.Notation

/-! # Powers of ten of dtoa.h, generated from /repo/mylib/mystl/dtoa.h:132-187 by /verif/tools/gen_grisu.py -/

namespace Verif.Grisu

/-- `kCachedPowers_F` — dtoa.h:134-176 -/
def cachedF : List Nat := [
  18054884314459144840, 13451937075301367670, 10022474136428063862, 14934650266808366570,
  11127181549972568877, 16580792590934885855, 12353653155963782858, 18408377700990114895,
  13715310171984221708, 10218702384817765436, 15227053142812498563, 11345038669416679861,
  16905424996341287883, 12595523146049147757, 9384396036005875287, 13983839803942852151,
  10418772551374772303, 15525180923007089351, 11567161174868858868, 17236413322193710309,
  12842128665889583758, 9568131466127621947, 14257626930069360058, 10622759856335341974,
  15829145694278690180, 11793632577567316726, 17573882009934360870, 13093562431584567480,
  9755464219737475723, 14536774485912137811, 10830740992659433045, 16139061738043178685,
  12024538023802026127, 17917957937422433684, 13349918974505688015, 9946464728195732843,
  14821387422376473014, 11042794154864902060, 16455045573212060422, 12259964326927110867,
  18268770466636286478, 13611294676837538539, 10141204801825835212, 15111572745182864684,
  11258999068426240000, 16777216000000000000, 12500000000000000000, 9313225746154785156,
  13877787807814456755, 10339757656912845936, 15407439555097886824, 11479437019748901445,
  17105694144590052135, 12744735289059618216, 9495567745759798747, 14149498560666738074,
  10542197943230523224, 15709099088952724970, 11704190886730495818, 17440603504673385349,
  12994262207056124023, 9681479787123295682, 14426529090290212157, 10748601772107342003,
  16016664761464807395, 11933345169920330789, 17782069995880619868, 13248674568444952270,
  9871031767461413346, 14708983551653345445, 10959046745042015199, 16330252207878254650,
  12166986024289022870, 18130221999122236476, 13508068024458167312, 10064294952495520794,
  14996968138956309548, 11173611982879273257, 16649979327439178909, 12405201291620119593,
  9242595204427927429, 13772540099066387757, 10261342003245940623, 15290591125556738113,
  11392378155556871081, 16975966327722178521, 12648080533535911531]

/-- `kCachedPowers_E` — dtoa.h:177-187 -/
def cachedE : List Int := [
  -1220, -1193, -1166, -1140, -1113, -1087, -1060, -1034, -1007, -980, -954, -927, -901, -874, -847, -821,
  -794, -768, -741, -715, -688, -661, -635, -608, -582, -555, -529, -502, -475, -449, -422, -396,
  -369, -343, -316, -289, -263, -236, -210, -183, -157, -130, -103, -77, -50, -24, 3, 30,
  56, 83, 109, 136, 162, 189, 216, 242, 269, 295, 322, 348, 375, 402, 428, 455,
  481, 508, 534, 561, 588, 614, 641, 667, 694, 720, 747, 774, 800, 827, 853, 880,
  907, 933, 960, 986, 1013, 1039, 1066]

end Verif.Grisu
