import Mathlib.Data.Real.Basic

/-!
# Built-in tables of the Earth, of the longitude of the moon and of nutation — /repo/eph/eph_data.h:48, 140-157, 316-319

Generated by tools/gen_eph.py: every number of the source times 10^9, exactly.
-/

namespace Verif.EphTab

/-- a number of the tables -/
noncomputable def dec (n : ℤ) : ℝ := n / 10 ^ 9

/-- part of `X0_DATA` -/
def x0I_0 : List ℤ := [
  10000000000000000000, 20000000000, 578000000000, 920000000000, 1100000000000, 1124000000000, 1136000000000, 1148000000000, 1217000000000,
  1226000000000, 1229000000000, 1229000000000, 1229000000000, 1229000000000, 1937000000000, 2363000000000, 2618000000000, 2633000000000,
  2660000000000, 2666000000000, 17534704567000000000, 0, 0, 334165646000000000, 4669256804, 6283075849991, 3489428000000000, 4626102400,
  12566151700000, 349706000000000, 2744118000, 5753384885000, 341757000000000, 2828866000, 3523118000, 313590000000000, 3627670000, 77713771468000,
  267622000000000, 4418084000, 7860419392000, 234269000000000, 6135162000, 3930209696000, 132429000000000, 742464000, 11506769770000,
  127317000000000, 2037097000, 529690965000, 119917000000000, 1109629000, 1577343542000, 99025000000000, 5232680000, 5884926850000, 90186000000000,
  2045050000, 26298320000, 85722000000000, 3508490000, 398149000000, 77979000000000, 1178830000, 5223693920000, 75314000000000, 2533390000,
  5507553240000, 50526000000000, 4582930000, 18849227550000, 49238000000000, 4205070000, 775522610000, 35666000000000, 2919540000, 67310000,
  31709000000000, 5849020000, 11790629090000, 28413000000000, 1898690000, 796298010000, 27104000000000, 314890000, 10977078800000, 24281000000000,
  344810000, 5486777840000, 20616000000000, 4806470000, 2544314420000, 20539000000000, 1869480000, 5573142800000, 20226000000000]

/-- part of `X0_DATA` -/
def x0I_1 : List ℤ := [
  2457680000, 6069776750000, 15552000000000, 833060000, 213299100000, 13221000000000, 3411180000, 2942463420000, 12618000000000, 1083030000,
  20775400000, 11513000000000, 645450000, 980320000, 10285000000000, 636000000, 4694002950000, 10190000000000, 975690000, 15720838780000,
  10172000000000, 4266800000, 7113550000, 9921000000000, 6209900000, 2146165400000, 9761000000000, 681000000, 155420400000, 8580000000000,
  5983200000, 161000685700000, 8513000000000, 1298700000, 6275962300000, 8471000000000, 3670800000, 71430695600000, 7964000000000, 1807900000,
  17260154700000, 7876000000000, 3037000000, 12036460700000, 7465000000000, 1755100000, 5088628800000, 7387000000000, 3503200000, 3154687100000,
  7355000000000, 4679300000, 801820900000, 6963000000000, 833000000, 9437762900000, 6245000000000, 3977600000, 8827390300000, 6115000000000,
  1818400000, 7084896800000, 5696000000000, 2784300000, 6286599000000, 5612000000000, 4386900000, 14143495200000, 5558000000000, 3470100000,
  6279552700000, 5199000000000, 189100000, 12139553500000, 5161000000000, 1332800000, 1748016400000, 5115000000000, 283100000, 5856477700000,
  4900000000000, 487400000, 1194447000000, 4104000000000, 5368200000, 8429241300000, 4094000000000, 2398500000, 19651048500000, 3920000000000,
  6168300000, 10447387800000, 3677000000000, 6041300000, 10213285500000, 3660000000000]

/-- part of `X0_DATA` -/
def x0I_2 : List ℤ := [
  2569600000, 1059381900000, 3595000000000, 1708800000, 2352866200000, 3557000000000, 1776000000, 6812766800000, 3329000000000, 593100000,
  17789845600000, 3041000000000, 442900000, 83996847300000, 3005000000000, 2739800000, 1349867400000, 2535000000000, 3164700000, 4690479800000,
  2474000000000, 214800000, 3590400000, 2366000000000, 484700000, 8031092300000, 2357000000000, 2065300000, 3340612400000, 2282000000000, 5222000000,
  4705732300000, 2189000000000, 5555900000, 553569400000, 2142000000000, 1425600000, 16730463700000, 2109000000000, 4148300000, 951718400000,
  2030000000000, 371300000, 283859300000, 1992000000000, 5222100000, 12168002700000, 1986000000000, 5774700000, 6309374200000, 1912000000000,
  3822200000, 23581258200000, 1889000000000, 5386300000, 149854400100000, 1790000000000, 2214900000, 13367972600000, 1748000000000, 4560500000,
  135065100000, 1622000000000, 5988400000, 11769853700000, 1508000000000, 4195700000, 6256777500000, 1442000000000, 4193200000, 242728600000,
  1435000000000, 3723600000, 38027700000, 1397000000000, 4401400000, 6681224900000, 1362000000000, 1889300000, 7632943300000, 1250000000000,
  1130500000, 5522900000, 1205000000000, 2622300000, 955599700000, 1200000000000, 1003500000, 632783700000, 1129000000000, 177400000, 4164312000000,
  1083000000000, 327300000, 103092800000, 1052000000000]

/-- part of `X0_DATA` -/
def x0I_3 : List ℤ := [
  938700000, 11926254400000, 1050000000000, 5359100000, 1592596000000, 1033000000000, 6199800000, 6438496200000, 1001000000000, 6029100000,
  5746271300000, 980000000000, 999000000, 11371705000000, 980000000000, 5244000000, 27511468000000, 938000000000, 2624000000, 5760498000000,
  923000000000, 483000000, 522577000000, 922000000000, 4571000000, 4292331000000, 905000000000, 5337000000, 6386169000000, 862000000000, 4165000000,
  7058598000000, 841000000000, 3299000000, 7234794000000, 836000000000, 4539000000, 25132303000000, 813000000000, 6112000000, 4732031000000,
  812000000000, 6271000000, 426598000000, 801000000000, 5821000000, 28449000000, 787000000000, 996000000, 5643179000000, 776000000000, 2957000000,
  23013540000000, 769000000000, 3121000000, 7238676000000, 758000000000, 3974000000, 11499656000000, 735000000000, 4386000000, 316392000000,
  731000000000, 607000000, 11513883000000, 719000000000, 3998000000, 74782000000, 706000000000, 323000000, 263084000000, 676000000000, 5911000000,
  90955552000000, 663000000000, 3665000000, 17298182000000, 653000000000, 5791000000, 18073705000000, 630000000000, 4717000000, 6836645000000,
  615000000000, 1458000000, 233141314000000, 612000000000, 1075000000, 19804827000000, 596000000000, 3321000000, 6283009000000, 596000000000,
  2876000000, 6283143000000, 555000000000]

/-- part of `X0_DATA` -/
def x0I_4 : List ℤ := [
  2452000000, 12352853000000, 541000000000, 5392000000, 419485000000, 531000000000, 382000000, 31441678000000, 519000000000, 4065000000,
  6208294000000, 513000000000, 2361000000, 10973556000000, 494000000000, 5737000000, 9917697000000, 450000000000, 3272000000, 11015106000000,
  449000000000, 3653000000, 206186000000, 447000000000, 2064000000, 7079374000000, 435000000000, 4423000000, 5216580000000, 421000000000, 1906000000,
  245832000000, 413000000000, 921000000, 3738761000000, 402000000000, 840000000, 20355000000, 387000000000, 1826000000, 11856219000000, 379000000000,
  2344000000, 3881000000, 374000000000, 2954000000, 3128389000000, 370000000000, 5031000000, 536805000000, 365000000000, 1018000000, 16200773000000,
  365000000000, 1083000000, 88860057000000, 352000000000, 5978000000, 3894182000000, 352000000000, 2056000000, 244287600000000, 351000000000,
  3713000000, 6290189000000, 340000000000, 1106000000, 14712317000000, 339000000000, 978000000, 8635942000000, 339000000000, 3202000000,
  5120601000000, 333000000000, 837000000, 6496375000000, 325000000000, 3479000000, 6133513000000, 316000000000, 5089000000, 21228392000000,
  316000000000, 1328000000, 10873986000000, 309000000000, 3646000000, 10637000000, 303000000000, 1802000000, 35371887000000, 296000000000,
  3397000000, 9225539000000, 288000000000]

/-- part of `X0_DATA` -/
def x0I_5 : List ℤ := [
  6026000000, 154717610000000, 281000000000, 2585000000, 14314168000000, 262000000000, 3856000000, 266607000000, 262000000000, 2579000000,
  22483849000000, 257000000000, 1561000000, 23543231000000, 255000000000, 3949000000, 1990745000000, 251000000000, 3744000000, 10575407000000,
  240000000000, 1161000000, 10984192000000, 238000000000, 106000000, 7046000000, 236000000000, 4272000000, 6040347000000, 234000000000, 3577000000,
  10969965000000, 211000000000, 3714000000, 65147620000000, 210000000000, 754000000, 13521751000000, 207000000000, 4228000000, 5650292000000,
  202000000000, 814000000, 170673000000, 201000000000, 4629000000, 6037244000000, 200000000000, 381000000, 6172870000000, 199000000000, 3933000000,
  6206810000000, 199000000000, 5197000000, 6262300000000, 197000000000, 1046000000, 18209330000000, 195000000000, 1070000000, 5230807000000,
  195000000000, 4869000000, 36028000000, 194000000000, 4313000000, 6244943000000, 192000000000, 1229000000, 709933000000, 192000000000, 5595000000,
  6282096000000, 192000000000, 602000000, 6284056000000, 189000000000, 3744000000, 23878000000, 188000000000, 1904000000, 15252000000, 188000000000,
  867000000, 22003915000000, 182000000000, 3681000000, 15110466000000, 181000000000, 491000000, 1484000000, 179000000000, 3222000000, 39302097000000,
  179000000000]

/-- part of `X0_DATA` -/
def x0I_6 : List ℤ := [
  1259000000, 12559038000000, 62833196674749000000000, 0, 0, 20605886000000000, 2678234560, 6283075849990, 430343000000000, 2635127000,
  12566151700000, 42526000000000, 1590470000, 3523120000, 11926000000000, 5795570000, 26298320000, 10898000000000, 2966180000, 1577343540000,
  9348000000000, 2592100000, 18849227500000, 7212000000000, 1138500000, 529691000000, 6777000000000, 1874700000, 398149000000, 6733000000000,
  4409200000, 5507553200000, 5903000000000, 2888000000, 5223693900000, 5598000000000, 2174700000, 155420400000, 4541000000000, 398000000,
  796298000000, 3637000000000, 466200000, 775522600000, 2896000000000, 2647100000, 7113500000, 2084000000000, 5341400000, 980300000, 1910000000000,
  1846300000, 5486777800000, 1851000000000, 4968600000, 213299100000, 1729000000000, 2991200000, 6275962300000, 1623000000000, 32200000,
  2544314400000, 1583000000000, 1430500000, 2146165400000, 1462000000000, 1205300000, 10977078800000, 1246000000000, 2834300000, 1748016400000,
  1188000000000, 3258000000, 5088628800000, 1181000000000, 5273800000, 1194447000000, 1151000000000, 2075000000, 4694003000000, 1064000000000,
  766100000, 553569400000, 997000000000, 1303000000, 6286599000000, 972000000000, 4239000000, 1349867000000, 945000000000, 2700000000, 242729000000,
  858000000000, 5645000000, 951718000000, 758000000000]

/-- part of `X0_DATA` -/
def x0I_7 : List ℤ := [
  5301000000, 2352866000000, 639000000000, 2650000000, 9437763000000, 610000000000, 4666000000, 4690480000000, 583000000000, 1766000000,
  1059382000000, 531000000000, 909000000, 3154687000000, 522000000000, 5661000000, 71430696000000, 520000000000, 1854000000, 801821000000,
  504000000000, 1425000000, 6438496000000, 433000000000, 241000000, 6812767000000, 426000000000, 774000000, 10447388000000, 413000000000, 5240000000,
  7084897000000, 374000000000, 2001000000, 8031092000000, 356000000000, 2429000000, 14143495000000, 350000000000, 4800000000, 6279553000000,
  337000000000, 888000000, 12036461000000, 337000000000, 3862000000, 1592596000000, 325000000000, 3400000000, 7632943000000, 322000000000, 616000000,
  8429241000000, 318000000000, 3188000000, 4705732000000, 297000000000, 6070000000, 4292331000000, 295000000000, 1431000000, 5746271000000,
  290000000000, 2325000000, 20355000000, 275000000000, 935000000, 5760498000000, 270000000000, 4804000000, 7234794000000, 253000000000, 6223000000,
  6836645000000, 228000000000, 5003000000, 17789846000000, 225000000000, 5672000000, 11499656000000, 215000000000, 5202000000, 11513883000000,
  208000000000, 3955000000, 10213286000000, 208000000000, 2268000000, 522577000000, 206000000000, 2224000000, 5856478000000, 206000000000,
  2550000000, 25132303000000, 203000000000]

/-- part of `X0_DATA` -/
def x0I_8 : List ℤ := [
  910000000, 6256778000000, 189000000000, 532000000, 3340612000000, 188000000000, 4735000000, 83996847000000, 179000000000, 1474000000,
  4164312000000, 178000000000, 3025000000, 5523000000, 177000000000, 3026000000, 5753385000000, 159000000000, 4637000000, 3286000000, 157000000000,
  6124000000, 5216580000000, 155000000000, 3077000000, 6681225000000, 154000000000, 4200000000, 13367973000000, 143000000000, 1191000000,
  3894182000000, 138000000000, 3093000000, 135065000000, 136000000000, 4245000000, 426598000000, 134000000000, 5765000000, 6040347000000,
  128000000000, 3085000000, 5643179000000, 127000000000, 2092000000, 6290189000000, 125000000000, 3077000000, 11926254000000, 125000000000,
  3445000000, 536805000000, 114000000000, 3244000000, 12168003000000, 112000000000, 2318000000, 16730464000000, 111000000000, 3901000000,
  11506770000000, 111000000000, 5320000000, 23878000000, 105000000000, 3750000000, 7860419000000, 103000000000, 2447000000, 1990745000000,
  96000000000, 820000000, 3880000000, 96000000000, 4080000000, 6127660000000, 91000000000, 5420000000, 206190000000, 91000000000, 420000000,
  7079370000000, 88000000000, 5170000000, 11790630000000, 81000000000, 340000000, 9917700000000, 80000000000, 3890000000, 10973560000000,
  78000000000, 2400000000, 1589070000000, 78000000000]

/-- part of `X0_DATA` -/
def x0I_9 : List ℤ := [
  2580000000, 11371700000000, 77000000000, 3980000000, 955600000000, 77000000000, 3360000000, 36030000000, 76000000000, 1300000000, 103090000000,
  75000000000, 5180000000, 10969970000000, 75000000000, 4960000000, 6496370000000, 73000000000, 5210000000, 38030000000, 72000000000, 2650000000,
  6309370000000, 70000000000, 5610000000, 3738760000000, 69000000000, 2600000000, 3496030000000, 69000000000, 390000000, 15250000000, 69000000000,
  2780000000, 20780000000, 65000000000, 1130000000, 7058600000000, 64000000000, 4280000000, 28450000000, 61000000000, 5630000000, 10984190000000,
  60000000000, 730000000, 419480000000, 60000000000, 5280000000, 10575410000000, 58000000000, 5550000000, 17298180000000, 58000000000, 3190000000,
  4732030000000, 5291887000000000, 0, 0, 871984000000000, 1072097000, 6283075850000, 30913000000000, 867290000, 12566151700000, 2734000000000,
  53000000, 3523100000, 1633000000000, 5188300000, 26298300000, 1575000000000, 3684600000, 155420400000, 954000000000, 757000000, 18849228000000,
  894000000000, 2057000000, 77713771000000, 695000000000, 827000000, 775523000000, 506000000000, 4663000000, 1577344000000, 406000000000, 1031000000,
  7114000000, 381000000000, 3441000000, 5573143000000, 346000000000, 5141000000, 796298000000, 317000000000]

/-- part of `X0_DATA` -/
def x0I_10 : List ℤ := [
  6053000000, 5507553000000, 302000000000, 1192000000, 242729000000, 289000000000, 6117000000, 529691000000, 271000000000, 306000000, 398149000000,
  254000000000, 2280000000, 553569000000, 237000000000, 4381000000, 5223694000000, 208000000000, 3754000000, 980000000, 168000000000, 902000000,
  951718000000, 153000000000, 5759000000, 1349867000000, 145000000000, 4364000000, 1748016000000, 134000000000, 3721000000, 1194447000000,
  125000000000, 2948000000, 6438496000000, 122000000000, 2973000000, 2146165000000, 110000000000, 1271000000, 161000686000000, 104000000000,
  604000000, 3154687000000, 100000000000, 5986000000, 6286599000000, 92000000000, 4800000000, 5088630000000, 89000000000, 5230000000, 7084900000000,
  83000000000, 3310000000, 213300000000, 76000000000, 3420000000, 5486780000000, 71000000000, 6190000000, 4690480000000, 68000000000, 3430000000,
  4694000000000, 65000000000, 1600000000, 2544310000000, 64000000000, 1980000000, 801820000000, 61000000000, 2480000000, 10977080000000, 50000000000,
  1440000000, 6836650000000, 49000000000, 2340000000, 1592600000000, 46000000000, 1310000000, 4292330000000, 46000000000, 3810000000,
  149854400000000, 43000000000, 40000000, 7234790000000, 40000000000, 4940000000, 7632940000000, 39000000000, 1570000000, 71430700000000, 38000000000]

/-- part of `X0_DATA` -/
def x0I_11 : List ℤ := [
  3170000000, 6309370000000, 35000000000, 990000000, 6040350000000, 35000000000, 670000000, 1059380000000, 31000000000, 3180000000, 2352870000000,
  31000000000, 3550000000, 8031090000000, 30000000000, 1920000000, 10447390000000, 30000000000, 2520000000, 6127660000000, 28000000000, 4420000000,
  9437760000000, 28000000000, 2710000000, 3894180000000, 27000000000, 670000000, 25132300000000, 26000000000, 5270000000, 6812770000000, 25000000000,
  550000000, 6279550000000, 23000000000, 1380000000, 4705730000000, 22000000000, 640000000, 6256780000000, 20000000000, 6070000000, 640880000000,
  28923000000000, 5843840000, 6283075850000, 3496000000000, 0, 0, 1682000000000, 5487700000, 12566151700000, 296000000000, 5196000000, 155420000000,
  129000000000, 4722000000, 3523000000, 71000000000, 5300000000, 18849230000000, 64000000000, 5970000000, 242730000000, 40000000000, 3790000000,
  553570000000, 11408000000000, 3141590000, 0, 772000000000, 4134000000, 6283076000000, 77000000000, 3840000000, 12566150000000, 42000000000,
  420000000, 155420000000, 88000000000, 3140000000, 0, 17000000000, 2770000000, 6283080000000, 5000000000, 2010000000, 155420000000, 3000000000,
  2210000000, 12566150000000, 27962000000000, 3198700000, 84334661580000, 10164000000000]

/-- part of `X0_DATA` -/
def x0I_12 : List ℤ := [
  5422490000, 5507553240000, 8045000000000, 3880100000, 5223693900000, 4381000000000, 3704400000, 2352866200000, 3193000000000, 4000300000,
  1577343500000, 2272000000000, 3984700000, 1047747300000, 1814000000000, 4983700000, 6283075800000, 1639000000000, 3564600000, 5856477700000,
  1444000000000, 3702800000, 9437762900000, 1430000000000, 3411200000, 10213285500000, 1125000000000, 4828200000, 14143495200000, 1090000000000,
  2085700000, 6812766800000, 1037000000000, 4056600000, 71092881400000, 971000000000, 3473000000, 4694003000000, 915000000000, 1142000000,
  6620890000000, 878000000000, 4440000000, 5753385000000, 837000000000, 4993000000, 7084897000000, 770000000000, 5554000000, 167621576000000,
  719000000000, 3602000000, 529691000000, 692000000000, 4326000000, 6275962000000, 558000000000, 4410000000, 7860419000000, 529000000000, 2484000000,
  4705732000000, 521000000000, 6250000000, 18073705000000, 903000000000, 3897000000, 5507553000000, 618000000000, 1730000000, 5223694000000,
  380000000000, 5244000000, 2352866000000, 166000000000, 1627000000, 84334662000000, 10001398880000000000, 0, 0, 167069963000000000, 3098463508,
  6283075849991, 1395602000000000, 3055246100, 12566151700000, 308372000000000, 5198467000, 77713771468000, 162846000000000, 1173877000,
  5753384885000, 157557000000000, 2846852000, 7860419392000, 92480000000000]

/-- part of `X0_DATA` -/
def x0I_13 : List ℤ := [
  5452920000, 11506769770000, 54244000000000, 4564090000, 3930209700000, 47211000000000, 3661000000, 5884926850000, 34598000000000, 963690000,
  5507553240000, 32878000000000, 5899840000, 5223693920000, 30678000000000, 298670000, 5573142800000, 24319000000000, 4273500000, 11790629090000,
  21183000000000, 5847150000, 1577343540000, 18575000000000, 5021940000, 10977078800000, 17484000000000, 3011940000, 18849227550000, 10984000000000,
  5055110000, 5486777840000, 9832000000000, 886800000, 6069776800000, 8650000000000, 5689600000, 15720838800000, 8583000000000, 1270800000,
  161000685700000, 6490000000000, 272500000, 17260154700000, 6292000000000, 921800000, 529691000000, 5706000000000, 2013700000, 83996847300000,
  5574000000000, 5241600000, 71430695600000, 4938000000000, 3245000000, 2544314400000, 4696000000000, 2578100000, 775522600000, 4466000000000,
  5537200000, 9437762900000, 4252000000000, 6011100000, 6275962300000, 3897000000000, 5360700000, 4694003000000, 3825000000000, 2392600000,
  8827390300000, 3749000000000, 829500000, 19651048500000, 3696000000000, 4901100000, 12139553500000, 3566000000000, 1674700000, 12036460700000,
  3454000000000, 1842700000, 2942463400000, 3319000000000, 243700000, 7084896800000, 3192000000000, 183700000, 5088628800000, 3185000000000,
  1777800000, 398149000000, 2846000000000, 1213400000, 6286599000000, 2779000000000]

/-- part of `X0_DATA` -/
def x0I_14 : List ℤ := [
  1899300000, 6279552700000, 2628000000000, 4589000000, 10447387800000, 2460000000000, 3786600000, 8429241300000, 2393000000000, 4996000000,
  5856477700000, 2359000000000, 268700000, 796298000000, 2329000000000, 2807800000, 14143495200000, 2210000000000, 1950000000, 3154687100000,
  2035000000000, 4652700000, 2146165400000, 1951000000000, 5382300000, 2352866200000, 1883000000000, 673100000, 149854400100000, 1833000000000,
  2253500000, 23581258200000, 1796000000000, 198700000, 6812766800000, 1731000000000, 6152000000, 16730463700000, 1717000000000, 4433200000,
  10213285500000, 1619000000000, 5231600000, 17789845600000, 1381000000000, 5189600000, 8031092300000, 1364000000000, 3685200000, 4705732300000,
  1314000000000, 652900000, 13367972600000, 1041000000000, 4332900000, 11769853700000, 1017000000000, 1593900000, 4690479800000, 998000000000,
  4201000000, 6309374000000, 966000000000, 3676000000, 27511468000000, 874000000000, 6064000000, 1748016000000, 779000000000, 3674000000,
  12168003000000, 771000000000, 312000000, 7632943000000, 756000000000, 2626000000, 6256778000000, 746000000000, 5648000000, 11926254000000,
  693000000000, 2924000000, 6681225000000, 680000000000, 1423000000, 23013540000000, 674000000000, 563000000, 3340612000000, 663000000000,
  5661000000, 11371705000000, 659000000000, 3136000000, 801821000000, 648000000000]

/-- part of `X0_DATA` -/
def x0I_15 : List ℤ := [
  2650000000, 19804827000000, 615000000000, 3029000000, 233141314000000, 612000000000, 5134000000, 1194447000000, 563000000000, 4341000000,
  90955552000000, 552000000000, 2091000000, 17298182000000, 534000000000, 5100000000, 31441678000000, 531000000000, 2407000000, 11499656000000,
  523000000000, 4624000000, 6438496000000, 513000000000, 5324000000, 11513883000000, 477000000000, 256000000, 11856219000000, 461000000000,
  1722000000, 7234794000000, 458000000000, 3766000000, 6386169000000, 458000000000, 4466000000, 5746271000000, 423000000000, 1055000000,
  5760498000000, 422000000000, 1557000000, 7238676000000, 415000000000, 2599000000, 7058598000000, 401000000000, 3030000000, 1059382000000,
  397000000000, 1201000000, 1349867000000, 379000000000, 4907000000, 4164312000000, 360000000000, 5707000000, 5643179000000, 352000000000,
  3626000000, 244287600000000, 348000000000, 761000000, 10973556000000, 342000000000, 3001000000, 4292331000000, 336000000000, 4546000000,
  4732031000000, 334000000000, 3138000000, 6836645000000, 324000000000, 4164000000, 9917697000000, 316000000000, 1691000000, 11015106000000,
  307000000000, 238000000, 35371887000000, 298000000000, 1306000000, 6283143000000, 298000000000, 1750000000, 6283009000000, 293000000000,
  5738000000, 16200773000000, 286000000000, 5928000000, 14712317000000, 281000000000]

/-- part of `X0_DATA` -/
def x0I_16 : List ℤ := [
  3515000000, 21228392000000, 280000000000, 5663000000, 8635942000000, 277000000000, 513000000, 26298000000, 268000000000, 4207000000,
  18073705000000, 266000000000, 900000000, 12352853000000, 260000000000, 2962000000, 25132303000000, 255000000000, 2477000000, 6208294000000,
  242000000000, 2800000000, 709933000000, 231000000000, 1054000000, 22483849000000, 229000000000, 1070000000, 14314168000000, 216000000000,
  1314000000, 154717610000000, 215000000000, 6038000000, 10873986000000, 200000000000, 561000000, 7079374000000, 198000000000, 2614000000,
  951718000000, 197000000000, 4369000000, 167283762000000, 186000000000, 2861000000, 5216580000000, 183000000000, 1660000000, 39302097000000,
  183000000000, 5912000000, 3738761000000, 175000000000, 2145000000, 6290189000000, 173000000000, 2168000000, 10575407000000, 171000000000,
  3702000000, 1592596000000, 171000000000, 1343000000, 3128389000000, 164000000000, 5550000000, 6496375000000, 164000000000, 5856000000,
  10984192000000, 161000000000, 1998000000, 10969965000000, 161000000000, 1909000000, 6133513000000, 157000000000, 4955000000, 25158602000000,
  154000000000, 6216000000, 23543231000000, 153000000000, 5357000000, 13521751000000, 150000000000, 5770000000, 18209330000000, 150000000000,
  5439000000, 155420000000, 139000000000, 1778000000, 9225539000000, 139000000000]

/-- part of `X0_DATA` -/
def x0I_17 : List ℤ := [
  1626000000, 5120601000000, 128000000000, 2460000000, 13916019000000, 123000000000, 717000000, 143571324000000, 122000000000, 2654000000,
  88860057000000, 121000000000, 4414000000, 3894182000000, 121000000000, 1192000000, 3523000000, 120000000000, 4030000000, 553569000000,
  119000000000, 1513000000, 17654781000000, 117000000000, 3117000000, 14945316000000, 113000000000, 2698000000, 6040347000000, 110000000000,
  3085000000, 43232307000000, 109000000000, 998000000, 955600000000, 108000000000, 2939000000, 17256632000000, 107000000000, 5285000000,
  65147620000000, 103000000000, 139000000, 11712955000000, 103000000000, 5850000000, 213299000000, 102000000000, 3046000000, 6037244000000,
  101000000000, 2842000000, 8662240000000, 100000000000, 3626000000, 6262300000000, 98000000000, 2360000000, 6206810000000, 98000000000, 5110000000,
  6172870000000, 98000000000, 2000000000, 15110470000000, 97000000000, 2670000000, 5650290000000, 97000000000, 2750000000, 6244940000000,
  96000000000, 4020000000, 6282100000000, 96000000000, 5310000000, 6284060000000, 92000000000, 100000000, 29088810000000, 85000000000, 3260000000,
  20426570000000, 84000000000, 2600000000, 28766920000000, 81000000000, 3580000000, 10177260000000, 80000000000, 5810000000, 5230810000000,
  78000000000, 2530000000, 16496360000000, 77000000000]

/-- part of `X0_DATA` -/
def x0I_18 : List ℤ := [
  4060000000, 6127660000000, 73000000000, 40000000, 5481250000000, 72000000000, 5960000000, 12559040000000, 72000000000, 5920000000, 4136910000000,
  71000000000, 5490000000, 22003910000000, 70000000000, 3410000000, 7110000000, 69000000000, 620000000, 11403680000000, 69000000000, 3900000000,
  1589070000000, 69000000000, 1960000000, 12416590000000, 69000000000, 4510000000, 426600000000, 67000000000, 1610000000, 11087290000000,
  66000000000, 4500000000, 47162520000000, 66000000000, 5080000000, 283860000000, 66000000000, 4320000000, 16858480000000, 65000000000, 1040000000,
  6062660000000, 64000000000, 1590000000, 18319540000000, 63000000000, 5700000000, 45892730000000, 63000000000, 4600000000, 66567490000000,
  63000000000, 3820000000, 13517870000000, 62000000000, 2620000000, 11190380000000, 61000000000, 1540000000, 33019020000000, 60000000000, 5580000000,
  10344300000000, 60000000000, 5380000000, 316428230000000, 60000000000, 5780000000, 632780000000, 59000000000, 6120000000, 9623690000000,
  57000000000, 160000000, 17267270000000, 57000000000, 3860000000, 6076890000000, 57000000000, 1980000000, 7668640000000, 56000000000, 4780000000,
  20199090000000, 55000000000, 4560000000, 18875530000000, 55000000000, 3510000000, 17253040000000, 54000000000, 3070000000, 226858240000000,
  54000000000]

/-- part of `X0_DATA` -/
def x0I_19 : List ℤ := [
  4830000000, 18422630000000, 53000000000, 5020000000, 12132440000000, 52000000000, 3630000000, 5333900000000, 52000000000, 970000000,
  155427540000000, 51000000000, 3360000000, 20597240000000, 50000000000, 990000000, 11609860000000, 50000000000, 2210000000, 1990750000000,
  48000000000, 1620000000, 12146670000000, 48000000000, 1170000000, 12569670000000, 47000000000, 4620000000, 5436990000000, 47000000000, 1810000000,
  12562630000000, 47000000000, 590000000, 21954160000000, 47000000000, 760000000, 7342460000000, 46000000000, 270000000, 4590910000000, 46000000000,
  3770000000, 156137480000000, 45000000000, 5660000000, 10454500000000, 44000000000, 5840000000, 3496030000000, 43000000000, 240000000,
  17996030000000, 41000000000, 5930000000, 51092730000000, 41000000000, 4210000000, 12592450000000, 40000000000, 5140000000, 1551050000000,
  40000000000, 5280000000, 15671080000000, 39000000000, 3690000000, 18052930000000, 39000000000, 4940000000, 24356780000000, 38000000000, 2720000000,
  11933370000000, 38000000000, 5230000000, 7477520000000, 38000000000, 4990000000, 9779110000000, 37000000000, 3700000000, 9388010000000,
  37000000000, 4440000000, 4535060000000, 36000000000, 2160000000, 28237230000000, 36000000000, 2540000000, 242730000000, 36000000000, 220000000,
  5429880000000, 35000000000]

/-- part of `X0_DATA` -/
def x0I_20 : List ℤ := [
  6150000000, 19800950000000, 35000000000, 2920000000, 36949230000000, 34000000000, 5630000000, 2379160000000, 34000000000, 5730000000,
  16460330000000, 34000000000, 5110000000, 5849360000000, 33000000000, 6190000000, 6268850000000, 10301861000000000, 1107489700, 6283075849990,
  172124000000000, 1064423000, 12566151700000, 70222000000000, 3141590000, 0, 3235000000000, 1021700000, 18849227500000, 3080000000000, 2843500000,
  5507553200000, 2497000000000, 1319100000, 5223693900000, 1849000000000, 1424300000, 1577343500000, 1008000000000, 5913800000, 10977078800000,
  865000000000, 1420000000, 6275962000000, 863000000000, 271000000, 5486778000000, 507000000000, 1686000000, 5088629000000, 499000000000, 6014000000,
  6286599000000, 467000000000, 5987000000, 529691000000, 440000000000, 518000000, 4694003000000, 410000000000, 1084000000, 9437763000000,
  387000000000, 4750000000, 2544314000000, 375000000000, 5071000000, 796298000000, 352000000000, 23000000, 83996847000000, 344000000000, 949000000,
  71430696000000, 341000000000, 5412000000, 775523000000, 322000000000, 6156000000, 2146165000000, 286000000000, 5484000000, 10447388000000,
  284000000000, 3420000000, 2352866000000, 255000000000, 6132000000, 6438496000000, 252000000000, 243000000, 398149000000, 243000000000, 3092000000,
  4690480000000, 225000000000]

/-- part of `X0_DATA` -/
def x0I_21 : List ℤ := [
  3689000000, 7084897000000, 220000000000, 4952000000, 6812767000000, 219000000000, 420000000, 8031092000000, 209000000000, 1282000000,
  1748016000000, 193000000000, 5314000000, 8429241000000, 185000000000, 1820000000, 7632943000000, 175000000000, 3229000000, 6279553000000,
  173000000000, 1537000000, 4705732000000, 158000000000, 4097000000, 11499656000000, 158000000000, 5539000000, 3154687000000, 150000000000,
  3633000000, 11513883000000, 148000000000, 3222000000, 7234794000000, 147000000000, 3653000000, 1194447000000, 144000000000, 817000000,
  14143495000000, 135000000000, 6151000000, 5746271000000, 134000000000, 4644000000, 6836645000000, 128000000000, 2693000000, 1349867000000,
  123000000000, 5650000000, 5760498000000, 118000000000, 2577000000, 13367973000000, 113000000000, 3357000000, 17789846000000, 110000000000,
  4497000000, 4292331000000, 108000000000, 5828000000, 12036461000000, 102000000000, 5621000000, 6256778000000, 99000000000, 1140000000,
  1059380000000, 98000000000, 660000000, 5856480000000, 93000000000, 2320000000, 10213290000000, 92000000000, 770000000, 16730460000000, 88000000000,
  1500000000, 11926250000000, 86000000000, 1420000000, 5753380000000, 85000000000, 660000000, 155420000000, 81000000000, 1640000000, 6681220000000,
  80000000000, 4110000000, 951720000000, 66000000000]

/-- part of `X0_DATA` -/
def x0I_22 : List ℤ := [
  4550000000, 5216580000000, 65000000000, 980000000, 25132300000000, 64000000000, 4190000000, 6040350000000, 64000000000, 520000000, 6290190000000,
  63000000000, 1510000000, 5643180000000, 59000000000, 6180000000, 4164310000000, 57000000000, 2300000000, 10973560000000, 55000000000, 2320000000,
  11506770000000, 55000000000, 2200000000, 1592600000000, 55000000000, 5270000000, 3340610000000, 54000000000, 5540000000, 553570000000, 53000000000,
  5040000000, 9917700000000, 53000000000, 920000000, 11371700000000, 52000000000, 3980000000, 17298180000000, 52000000000, 3600000000,
  10969970000000, 49000000000, 5910000000, 3894180000000, 49000000000, 2510000000, 6127660000000, 48000000000, 1670000000, 12168000000000,
  46000000000, 310000000, 801820000000, 42000000000, 3700000000, 10575410000000, 42000000000, 4050000000, 10984190000000, 40000000000, 2170000000,
  7860420000000, 40000000000, 4170000000, 26300000000, 38000000000, 5820000000, 7058600000000, 37000000000, 3390000000, 6496370000000, 36000000000,
  1080000000, 6309370000000, 36000000000, 5340000000, 7079370000000, 34000000000, 3620000000, 11790630000000, 32000000000, 320000000, 16200770000000,
  31000000000, 4240000000, 3738760000000, 29000000000, 4550000000, 11856220000000, 29000000000, 1260000000, 8635940000000, 27000000000]

/-- part of `X0_DATA` -/
def x0I_23 : List ℤ := [
  3450000000, 5884930000000, 26000000000, 5080000000, 10177260000000, 26000000000, 5380000000, 21228390000000, 24000000000, 2260000000,
  11712960000000, 24000000000, 1050000000, 242730000000, 24000000000, 5590000000, 6069780000000, 23000000000, 3630000000, 6284060000000, 23000000000,
  1640000000, 4732030000000, 22000000000, 3460000000, 213300000000, 21000000000, 1050000000, 3496030000000, 21000000000, 3920000000, 13916020000000,
  21000000000, 4010000000, 5230810000000, 20000000000, 5160000000, 12352850000000, 20000000000, 690000000, 1990750000000, 19000000000, 2730000000,
  6062660000000, 19000000000, 5010000000, 11015110000000, 18000000000, 6040000000, 6283010000000, 18000000000, 2850000000, 7238680000000,
  18000000000, 5600000000, 6283140000000, 18000000000, 5160000000, 17253040000000, 18000000000, 2540000000, 14314170000000, 17000000000, 1580000000,
  7110000000, 17000000000, 980000000, 3930210000000, 17000000000, 4750000000, 17267270000000, 16000000000, 2190000000, 6076890000000, 16000000000,
  2190000000, 18073700000000, 16000000000, 6120000000, 3520000000, 16000000000, 4610000000, 9623690000000, 16000000000, 3400000000, 16496360000000,
  15000000000, 190000000, 9779110000000, 15000000000, 5300000000, 13517870000000, 15000000000, 4260000000, 3128390000000, 15000000000]

/-- part of `X0_DATA` -/
def x0I_24 : List ℤ := [
  810000000, 709930000000, 14000000000, 500000000, 25158600000000, 14000000000, 4380000000, 4136910000000, 13000000000, 980000000, 65147620000000,
  13000000000, 3310000000, 154717610000000, 13000000000, 2110000000, 1589070000000, 13000000000, 1920000000, 22483850000000, 12000000000, 6030000000,
  9225540000000, 12000000000, 1530000000, 12559040000000, 12000000000, 5820000000, 6282100000000, 12000000000, 5610000000, 5642200000000,
  12000000000, 2380000000, 167283760000000, 12000000000, 390000000, 12132440000000, 12000000000, 3980000000, 4686890000000, 12000000000, 5810000000,
  12569670000000, 12000000000, 560000000, 5849360000000, 11000000000, 450000000, 6172870000000, 11000000000, 5800000000, 16858480000000, 11000000000,
  6220000000, 12146670000000, 11000000000, 2270000000, 5429880000000, 435939000000000, 5784551000, 6283075850000, 12363000000000, 5579350000,
  12566151700000, 1234000000000, 3141600000, 0, 879000000000, 3628000000, 77713771000000, 569000000000, 1870000000, 5573143000000, 330000000000,
  5470000000, 18849228000000, 147000000000, 4480000000, 5507553000000, 110000000000, 2842000000, 161000686000000, 101000000000, 2815000000,
  5223694000000, 85000000000, 3110000000, 1577340000000, 65000000000, 5470000000, 775520000000, 61000000000, 1380000000, 6438500000000, 50000000000]

/-- part of `X0_DATA` -/
def x0I_25 : List ℤ := [
  4420000000, 6286600000000, 47000000000, 3660000000, 7084900000000, 46000000000, 5390000000, 149854400000000, 42000000000, 900000000,
  10977080000000, 40000000000, 3200000000, 5088630000000, 35000000000, 1810000000, 5486780000000, 32000000000, 5350000000, 3154690000000,
  30000000000, 3520000000, 796300000000, 29000000000, 4620000000, 4690480000000, 28000000000, 1840000000, 4694000000000, 27000000000, 3140000000,
  71430700000000, 27000000000, 6170000000, 6836650000000, 26000000000, 1420000000, 2146170000000, 25000000000, 2810000000, 1748020000000,
  24000000000, 2180000000, 155420000000, 23000000000, 4760000000, 7234790000000, 21000000000, 3380000000, 7632940000000, 21000000000, 220000000,
  4705730000000, 20000000000, 4220000000, 1349870000000, 20000000000, 2010000000, 1194450000000, 20000000000, 4580000000, 529690000000, 19000000000,
  1590000000, 6309370000000, 18000000000, 5700000000, 6040350000000, 18000000000, 6030000000, 4292330000000, 17000000000, 2900000000, 9437760000000,
  17000000000, 2000000000, 8031090000000, 17000000000, 5780000000, 83996850000000, 16000000000, 50000000, 2544310000000, 15000000000, 950000000,
  6127660000000, 14000000000, 360000000, 10447390000000, 14000000000, 1480000000, 2352870000000, 13000000000, 770000000, 553570000000, 13000000000]

/-- part of `X0_DATA` -/
def x0I_26 : List ℤ := [
  5480000000, 951720000000, 13000000000, 5270000000, 6279550000000, 13000000000, 3760000000, 6812770000000, 11000000000, 5410000000, 6256780000000,
  10000000000, 680000000, 1592600000000, 10000000000, 4950000000, 398150000000, 10000000000, 1150000000, 3894180000000, 10000000000, 5200000000,
  244287600000000, 10000000000, 1940000000, 11856220000000, 9000000000, 5390000000, 25132300000000, 8000000000, 6180000000, 1059380000000,
  8000000000, 690000000, 8429240000000, 8000000000, 5850000000, 242730000000, 7000000000, 5260000000, 14143500000000, 7000000000, 520000000,
  801820000000, 6000000000, 2240000000, 8635940000000, 6000000000, 4000000000, 13367970000000, 6000000000, 2770000000, 90955550000000, 6000000000,
  5170000000, 7058600000000, 5000000000, 1460000000, 233141310000000, 5000000000, 4130000000, 7860420000000, 5000000000, 3910000000, 26300000000,
  5000000000, 3890000000, 12036460000000, 5000000000, 5580000000, 6290190000000, 5000000000, 5540000000, 1990750000000, 5000000000, 830000000,
  11506770000000, 5000000000, 6220000000, 6681220000000, 4000000000, 5260000000, 10575410000000, 4000000000, 1910000000, 7477520000000, 4000000000,
  430000000, 10213290000000, 4000000000, 1090000000, 709930000000, 4000000000, 5090000000, 11015110000000, 4000000000]

/-- part of `X0_DATA` -/
def x0I_27 : List ℤ := [
  4220000000, 88860060000000, 4000000000, 3570000000, 7079370000000, 4000000000, 1980000000, 6284060000000, 4000000000, 3930000000, 10973560000000,
  4000000000, 6180000000, 9917700000000, 4000000000, 360000000, 10177260000000, 4000000000, 2750000000, 3738760000000, 4000000000, 3330000000,
  5643180000000, 4000000000, 5360000000, 25158600000000, 14459000000000, 4273190000, 6283075850000, 673000000000, 3917000000, 12566152000000,
  77000000000, 0, 0, 25000000000, 3730000000, 18849230000000, 4000000000, 2800000000, 6286600000000, 386000000000, 2564000000, 6283076000000,
  31000000000, 2270000000, 12566150000000, 5000000000, 3440000000, 5573140000000, 2000000000, 2050000000, 18849230000000, 1000000000, 2060000000,
  77713770000000, 1000000000, 4410000000, 161000690000000, 1000000000, 3820000000, 149854400000000, 1000000000, 4080000000, 6127660000000,
  1000000000, 5260000000, 6438500000000, 9000000000, 1220000000, 6283080000000, 1000000000, 660000000, 12566150000000]

/-- `X0_DATA` — eph_data.h:140-157 -/
def x0I : List ℤ :=
  x0I_0 ++ (x0I_1 ++ (x0I_2 ++ (x0I_3 ++ (x0I_4 ++ (x0I_5 ++ (x0I_6 ++ (x0I_7 ++ (x0I_8 ++ (x0I_9 ++ (x0I_10 ++ (x0I_11 ++ (x0I_12 ++ (x0I_13 ++ (x0I_14 ++ (x0I_15 ++ (x0I_16 ++ (x0I_17 ++ (x0I_18 ++ (x0I_19 ++ (x0I_20 ++ (x0I_21 ++ (x0I_22 ++ (x0I_23 ++ (x0I_24 ++ (x0I_25 ++ (x0I_26 ++ x0I_27))))))))))))))))))))))))))

/-- part of `ML0_DATA` -/
def ml0I_0 : List ℤ := [
  22639586000000, 784758220, 8328691424623, 1522924100, 25071900000, -123598000, 4586438000000, 187397400, 7214062865360, -2184756000, -18860000000,
  82800000, 2369914000000, 2542952000, 15542754289980, -661832000, 6212000000, -40800000, 769026000000, 3140313000, 16657382849250, 3045850000,
  50144000000, -247200000, 666418000000, 1527671000, 628301955210, -26640000, 62000000, -5400000, 411596000000, 4826607000, 16866932315000,
  -1280120000, -1070000000, -5900000, 211656000000, 4115028000, -1114628559300, -3707680000, -43930000000, 206400000, 205436000000, 230523000,
  6585760910100, -2158120000, -18920000000, 88200000, 191956000000, 4898507000, 23871445714600, 861090000, 31280000000, -164000000, 164729000000,
  2586078000, 14914452334800, -635200000, 6150000000, -35000000, 147321000000, 5455300000, -7700389469400, -1549600000, -25010000000, 118000000,
  124988000000, 486080000, 7771377145000, -330900000, 3110000000, -20000000, 109380000000, 3883230000, 8956993379800, 1496300000, 25130000000,
  -129000000, 55177000000, 5570330000, -1324178025000, 618300000, 7300000000, -35000000, 45100000000, 898980000, 25195623740000, 242800000,
  24000000000, -129000000, 39533000000, 3812130000, -8538240890000, 2803000000, 26100000000, -118000000]

/-- part of `ML0_DATA` -/
def ml0I_1 : List ℤ := [
  38430000000, 4301150000, 22756817155000, -2846600000, -12600000000, 42000000, 36124000000, 5495870000, 24986074274000, 4568800000, 75200000000,
  -371000000, 30773000000, 1945590000, 14428125731000, -4369500000, -37700000000, 166000000, 28397000000, 3285860000, 7842364821000, -2211400000,
  -18800000000, 77000000, 24358000000, 5641420000, 16171056245000, -688500000, 6300000000, -46000000, 18585000000, 4413710000, -557314280000,
  -1853800000, -22000000000, 100000000, 17954000000, 3584540000, 8399679100000, -357600000, 3200000000, -30000000, 14530000000, 4941600000,
  23243143759000, 888000000, 31200000000, -160000000, 14380000000, 970900000, 32200137139000, 2384000000, 56400000000, -290000000, 14251000000,
  5764100000, -2301200000, 1523000000, 25100000000, -120000000, 13899000000, 373500000, 31085508580000, -1324000000, 12400000000, -80000000,
  13194000000, 1759500000, -9443319984000, -5231000000, -69000000000, 330000000, 9679000000, 3099700000, -16029080894000, -3072000000, -50100000000,
  240000000, 9366000000, 301600000, 24080995180000, -3465000000, -19900000000, 80000000, 8606000000, 4158200000, -1742930514000, -3681000000,
  -44000000000, 210000000, 8453000000, 2841600000, 16100068570000, 1192000000, 28200000000, -140000000]

/-- part of `ML0_DATA` -/
def ml0I_2 : List ℤ := [
  8050000000, 2629200000, 14286150380000, -609000000, 6100000000, -30000000, 7630000000, 6238800000, 17285684804000, 3019000000, 50200000000,
  -250000000, 7447000000, 1484500000, 1256603910000, -53000000, 100000000, -10000000, 7371000000, 273600000, 5957458955000, -2131000000,
  -19000000000, 90000000, 7063000000, 5671500000, 33757047000, -308000000, -3600000000, 20000000, 6383000000, 4784300000, 7004513400000, 2141000000,
  32400000000, -160000000, 5742000000, 2657200000, 32409686605000, -1942000000, 5000000000, -50000000, 4374000000, 4344300000, 22128515200000,
  -2820000000, -13000000000, 50000000, 3998000000, 3254500000, 33524315160000, 1766000000, 49000000000, -250000000, 3210000000, 2244300000,
  14985440010000, -2516000000, -16000000000, 60000000, 2915000000, 1713800000, 24499747670000, 834000000, 31000000000, -170000000, 2732000000,
  1988700000, 13799823780000, -4343000000, -38000000000, 170000000, 2568000000, 5412200000, -7072087510000, -1576000000, -25000000000, 110000000,
  2521000000, 3242700000, 8470666780000, -2238000000, -19000000000, 70000000, 2489000000, 4071900000, -486326600000, -3734000000, -44000000000,
  200000000, 2146000000, 5613500000, -1952479980000, 645000000, 7000000000, -30000000]

/-- part of `ML0_DATA` -/
def ml0I_3 : List ℤ := [
  1978000000, 2729100000, 39414200000000, 199000000, 37000000000, -210000000, 1934000000, 1568200000, 33314765700000, 6092000000, 100000000000,
  -500000000, 1871000000, 416600000, 30457206620000, -1297000000, 12000000000, -100000000, 1753000000, 2058200000, -8886005700000, -3380000000,
  -47000000000, 200000000, 1437000000, 2386000000, -695876070000, 590000000, 7000000000, 0, 1373000000, 3026000000, -209549470000, 4330000000,
  51000000000, -200000000, 1262000000, 5940000000, 16728370520000, 1170000000, 28000000000, -100000000, 1224000000, 6172000000, 6656748590000,
  -4040000000, -41000000000, 200000000, 1187000000, 5873000000, 6099434310000, -5890000000, -63000000000, 300000000, 1177000000, 1014000000,
  31571835180000, 2410000000, 56000000000, -300000000, 1162000000, 3840000000, 9585295340000, 1470000000, 25000000000, -100000000, 1143000000,
  5639000000, 8364739840000, -2180000000, -19000000000, 100000000, 1078000000, 1229000000, 70987680000, -1880000000, -22000000000, 100000000,
  1059000000, 3326000000, 40528828560000, 3910000000, 81000000000, -400000000, 990000000, 5013000000, 40738378030000, -420000000, 30000000000,
  -200000000, 948000000, 5687000000, -17772011410000, -6750000000, -94000000000, 500000000]

/-- part of `ML0_DATA` -/
def ml0I_4 : List ℤ := [
  876000000, 298000000, -352320000, 0, 0, 0, 822000000, 2994000000, 393020970000, 0, 0, 0, 788000000, 1836000000, 8326390220000, 3050000000,
  50000000000, -200000000, 752000000, 4985000000, 22614841800000, 910000000, 31000000000, -200000000, 740000000, 2875000000, 8330992620000, 0, 0, 0,
  669000000, 744000000, -24357772320000, -4600000000, -75000000000, 400000000, 644000000, 1314000000, 8393125770000, -2180000000, -19000000000,
  100000000, 639000000, 5888000000, 575338490000, 0, 0, 0, 635000000, 1116000000, 23385119110000, -2870000000, -13000000000, 0, 584000000,
  5197000000, 24428759990000, 2710000000, 53000000000, -300000000, 583000000, 3513000000, -9095555170000, 950000000, 4000000000, 0, 572000000,
  6059000000, 29970880020000, -5030000000, -32000000000, 100000000, 565000000, 2960000000, 328630000, 1520000000, 25000000000, -100000000, 561000000,
  4001000000, -17981560870000, -2430000000, -43000000000, 200000000, 557000000, 529000000, 7143075190000, -300000000, 3000000000, 0, 546000000,
  2311000000, 25614376230000, 4540000000, 75000000000, -400000000]

/-- part of `ML0_DATA` -/
def ml0I_5 : List ℤ := [
  536000000, 4229000000, 15752303760000, -4990000000, -45000000000, 200000000, 493000000, 3316000000, -8294934400000, -1830000000, -29000000000,
  100000000, 491000000, 1744000000, 8362448500000, 1210000000, 21000000000, -100000000, 478000000, 1803000000, -10071621900000, -5200000000,
  -69000000000, 300000000, 454000000, 857000000, 15333204800000, 3660000000, 57000000000, -300000000, 445000000, 2071000000, 8311770700000,
  -2180000000, -19000000000, 100000000, 426000000, 345000000, 23452693200000, -3440000000, -20000000000, 100000000, 420000000, 4941000000,
  33733864600000, -2560000000, -2000000000, 0, 413000000, 1642000000, 17495234300000, -1310000000, -1000000000, 0, 404000000, 1458000000,
  23314131400000, -990000000, 9000000000, -100000000, 395000000, 2132000000, 38299571400000, -3510000000, -6000000000, 0, 382000000, 2700000000,
  31781384600000, -1920000000, 5000000000, 0, 375000000, 4827000000, 6376211400000, 2170000000, 32000000000, -200000000, 361000000, 3867000000,
  16833175300000, -970000000, 3000000000, 0, 358000000, 5044000000, 15056427700000, -4400000000, -38000000000, 200000000, 350000000, 5157000000,
  -8257703700000, -3400000000, -47000000000, 200000000]

/-- part of `ML0_DATA` -/
def ml0I_6 : List ℤ := [
  344000000, 4233000000, 157734400000, 0, 0, 0, 340000000, 2672000000, 13657848400000, -580000000, 6000000000, 0, 329000000, 5610000000,
  41853006600000, 3290000000, 74000000000, -400000000, 325000000, 5895000000, -39814900000, 0, 0, 0, 309000000, 4387000000, 21500213200000,
  -2790000000, -13000000000, 100000000, 302000000, 1278000000, 786041900000, 0, 0, 0, 302000000, 5341000000, -24567321800000, -270000000,
  -24000000000, 100000000, 301000000, 1045000000, 5889884800000, -1570000000, -12000000000, 0, 294000000, 4201000000, -2371232500000, -3650000000,
  -44000000000, 200000000, 293000000, 3704000000, 21642188600000, -6550000000, -57000000000, 200000000, 290000000, 4069000000, 32828439100000,
  2360000000, 56000000000, -300000000, 289000000, 3472000000, 31713810500000, -1350000000, 12000000000, -100000000, 285000000, 5407000000,
  -33781400000, 310000000, 4000000000, 0, 283000000, 5998000000, -16920700000, -3710000000, -44000000000, 200000000, 283000000, 2772000000,
  38785898000000, 230000000, 37000000000, -200000000, 274000000, 5343000000, 15613742000000, -2540000000, -16000000000, 100000000]

/-- part of `ML0_DATA` -/
def ml0I_7 : List ℤ := [
  263000000, 3997000000, 25823925700000, 220000000, 24000000000, -100000000, 254000000, 600000000, 24638309500000, -1610000000, 2000000000, 0,
  253000000, 1344000000, 6447199100000, 290000000, 10000000000, -100000000, 250000000, 887000000, 141975400000, -3760000000, -44000000000, 200000000,
  247000000, 317000000, 5329157000000, -2100000000, -19000000000, 100000000, 245000000, 141000000, 36048400000, -3710000000, -44000000000, 200000000,
  231000000, 2287000000, 14357138100000, -2490000000, -16000000000, 100000000, 227000000, 5158000000, 2629800000, 0, 0, 0, 219000000, 5085000000,
  47742891400000, 1720000000, 63000000000, -300000000, 211000000, 2145000000, 6638724400000, -2180000000, -19000000000, 100000000, 201000000,
  4415000000, 39623749500000, -4130000000, -14000000000, 0, 194000000, 2091000000, 588492700000, 0, 0, 0, 193000000, 3057000000, -15400778900000,
  -3100000000, -50000000000, 0, 186000000, 5598000000, 16799358200000, -720000000, 6000000000, 0, 185000000, 3886000000, 1150677000000, 0, 0, 0,
  183000000, 1619000000, 7178014400000, 1520000000, 25000000000, 0]

/-- part of `ML0_DATA` -/
def ml0I_8 : List ℤ := [
  181000000, 2635000000, 8328339100000, 1520000000, 25000000000, 0, 181000000, 2077000000, 8329043700000, 1520000000, 25000000000, 0, 179000000,
  3215000000, -9652869400000, -900000000, -18000000000, 0, 176000000, 1716000000, -8815018000000, -5260000000, -69000000000, 0, 175000000,
  5673000000, 550755300000, 0, 0, 0, 170000000, 2060000000, 31295058000000, -5600000000, -39000000000, 0, 167000000, 1239000000, 7211761700000,
  -700000000, 6000000000, 0, 165000000, 4499000000, 14967415800000, -700000000, 6000000000, 0, 164000000, 3595000000, 15540453100000, 900000000,
  31000000000, 0, 164000000, 4237000000, 522369400000, 0, 0, 0, 163000000, 4633000000, 15545055500000, -2200000000, -19000000000, 0, 161000000,
  478000000, 6428020900000, -2200000000, -19000000000, 0, 158000000, 2030000000, 13171521800000, -4300000000, -38000000000, 0, 157000000, 2280000000,
  7216364100000, -3700000000, -44000000000, 0, 154000000, 5650000000, 7935670500000, 1500000000, 25000000000, 0, 152000000, 460000000,
  29828904700000, -1300000000, 12000000000, 0]

/-- part of `ML0_DATA` -/
def ml0I_9 : List ℤ := [
  151000000, 1190000000, -711300000, 0, 0, 0, 150000000, 1420000000, 23942433400000, -1000000000, 9000000000, 0, 144000000, 2750000000,
  7753352900000, 1500000000, 25000000000, 0, 137000000, 2080000000, 7213710500000, -2200000000, -19000000000, 0, 137000000, 1440000000,
  7214415200000, -2200000000, -19000000000, 0, 136000000, 4460000000, -1185616200000, -1800000000, -22000000000, 0, 136000000, 3030000000,
  8000104800000, -2200000000, -19000000000, 0, 134000000, 2830000000, 14756712400000, -700000000, 6000000000, 0, 131000000, 5050000000,
  6821041900000, -2200000000, -19000000000, 0, 128000000, 5990000000, -17214697100000, -4900000000, -72000000000, 0, 127000000, 5350000000,
  8721712400000, 1500000000, 25000000000, 0, 126000000, 4490000000, 46628262900000, -2000000000, 19000000000, 0, 125000000, 5940000000,
  7149628500000, 1500000000, 25000000000, 0, 124000000, 1090000000, 49067069500000, 1100000000, 55000000000, 0, 121000000, 2880000000,
  15471766600000, 1200000000, 28000000000, 0, 111000000, 3920000000, 41643457100000, 7600000000, 125000000000, -1000000000]

/-- part of `ML0_DATA` -/
def ml0I_10 : List ℤ := [
  110000000, 1960000000, 8904029900000, 1500000000, 25000000000, 0, 106000000, 3300000000, -18048900000, -2200000000, -19000000000, 0, 105000000,
  2300000000, -4931000000, 1500000000, 25000000000, 0, 104000000, 2220000000, -6559000000, -1900000000, -22000000000, 0, 101000000, 1440000000,
  1884905900000, -100000000, 0, 0, 100000000, 5920000000, 5471132400000, -5900000000, -63000000000, 0, 99000000, 1120000000, 15149733300000,
  -700000000, 6000000000, 0, 96000000, 4730000000, 15508997200000, -400000000, 10000000000, 0, 95000000, 5180000000, 7230983500000, 1500000000,
  25000000000, 0, 93000000, 3370000000, 39900526600000, 3900000000, 81000000000, 0, 92000000, 2010000000, 25057061900000, 2700000000, 53000000000, 0,
  92000000, 1210000000, -79629800000, 0, 0, 0, 92000000, 1650000000, -26310252300000, -4000000000, -68000000000, 0, 91000000, 1010000000,
  42062556100000, -1000000000, 23000000000, 0, 90000000, 6100000000, 29342578100000, -5000000000, -32000000000, 0, 90000000, 4430000000,
  15542402000000, -700000000, 6000000000, 0]

/-- part of `ML0_DATA` -/
def ml0I_11 : List ℤ := [
  90000000, 3800000000, 15543106600000, -700000000, 6000000000, 0, 89000000, 4150000000, 6063385900000, -2200000000, -19000000000, 0, 86000000,
  4030000000, 52969100000, 0, 0, 0, 85000000, 490000000, 47952440900000, -2600000000, 11000000000, 0, 85000000, 1600000000, 7632815400000,
  2100000000, 32000000000, 0, 84000000, 220000000, 14392077300000, -700000000, 6000000000, 0, 83000000, 6220000000, 6028446600000, -4000000000,
  -41000000000, 0, 83000000, 630000000, -7909938900000, 2800000000, 26000000000, 0, 83000000, 5200000000, -77552300000, 0, 0, 0, 82000000,
  2740000000, 8786146700000, -2200000000, -19000000000, 0, 80000000, 2430000000, 9166542800000, -2800000000, -26000000000, 0, 80000000, 3700000000,
  -25405173200000, 4100000000, 27000000000, 0, 78000000, 5680000000, 48857520000000, 5400000000, 106000000000, -1000000000, 77000000, 1850000000,
  8315573500000, -2200000000, -19000000000, 0, 75000000, 5460000000, -18191110300000, 1900000000, 8000000000, 0, 75000000, 1410000000,
  -16238630400000, 1300000000, 1000000000, 0]

/-- part of `ML0_DATA` -/
def ml0I_12 : List ℤ := [
  74000000, 5060000000, 40110076100000, -400000000, 30000000000, 0, 72000000, 2100000000, 64434300000, -3700000000, -44000000000, 0, 71000000,
  2170000000, 37671269500000, -3500000000, -6000000000, 0, 69000000, 1710000000, 16693431300000, -700000000, 6000000000, 0, 69000000, 3330000000,
  -26100702800000, -8300000000, -119000000000, 1000000000, 68000000, 1090000000, 8329402800000, 1500000000, 25000000000, 0, 68000000, 3620000000,
  8327980100000, 1500000000, 25000000000, 0, 68000000, 2410000000, 16833150900000, -1000000000, 3000000000, 0, 67000000, 3400000000, 24709297100000,
  -3500000000, -20000000000, 0, 67000000, 1650000000, 8346715600000, -300000000, 3000000000, 0, 66000000, 2610000000, 22547267700000, 1500000000,
  39000000000, 0, 66000000, 3500000000, 15576511300000, -1000000000, 3000000000, 0, 65000000, 5760000000, 33037988600000, -2000000000, 5000000000, 0,
  65000000, 4580000000, 8322132500000, -300000000, 3000000000, 0, 65000000, 6200000000, 17913986800000, 3000000000, 50000000000, 0, 65000000,
  1500000000, 22685829500000, -1000000000, 9000000000, 0]

/-- part of `ML0_DATA` -/
def ml0I_13 : List ℤ := [
  65000000, 2370000000, 7180305800000, -1900000000, -15000000000, 0, 64000000, 1060000000, 30943533200000, 2400000000, 56000000000, 0, 64000000,
  1890000000, 8288876500000, 1500000000, 25000000000, 0, 64000000, 4700000000, 6033500000, 300000000, 4000000000, 0, 63000000, 2830000000,
  8368506300000, 1500000000, 25000000000, 0, 63000000, 5660000000, -2580781900000, 700000000, 7000000000, 0, 62000000, 3780000000, 7056328500000,
  -2200000000, -19000000000, 0, 61000000, 1490000000, 8294910000000, 1800000000, 29000000000, 0, 61000000, 120000000, -10281171400000, -900000000,
  -18000000000, 0, 61000000, 3060000000, -8362472900000, -1200000000, -21000000000, 0, 61000000, 4430000000, 8170957100000, 1500000000, 25000000000,
  0, 59000000, 5780000000, -13117900000, -3700000000, -44000000000, 0, 59000000, 5970000000, 6625570200000, -2200000000, -19000000000, 0, 58000000,
  5010000000, -508000000, -300000000, 0, 0, 58000000, 2730000000, 7161093800000, -2200000000, -19000000000, 0, 57000000, 190000000, 7214062900000,
  -2200000000, -19000000000, 0]

/-- part of `ML0_DATA` -/
def ml0I_14 : List ℤ := [
  57000000, 4000000000, 22199502900000, -4700000000, -35000000000, 0, 57000000, 5380000000, 8119142000000, 5800000000, 76000000000, 0, 56000000,
  1070000000, 7542649500000, 1500000000, 25000000000, 0, 56000000, 280000000, 8486425800000, 1500000000, 25000000000, 0, 54000000, 4190000000,
  16655081600000, 4600000000, 75000000000, 0, 53000000, 720000000, 7267032000000, -2200000000, -19000000000, 0, 53000000, 3120000000, 12619200000,
  600000000, 7000000000, 0, 52000000, 2990000000, -32896013000000, -1800000000, -49000000000, 0, 52000000, 3460000000, 1097708000000, 0, 0, 0,
  51000000, 5370000000, -6443786000000, -1600000000, -25000000000, 0, 51000000, 1350000000, 7789401000000, -2200000000, -19000000000, 0, 51000000,
  5830000000, 40042502000000, 200000000, 38000000000, 0, 51000000, 3630000000, 9114733000000, 1500000000, 25000000000, 0, 50000000, 1510000000,
  8504484000000, -2500000000, -22000000000, 0, 50000000, 5230000000, 16659684000000, 1500000000, 25000000000, 0, 50000000, 1150000000, 7247820000000,
  -2500000000, -23000000000, 0]

/-- part of `ML0_DATA` -/
def ml0I_15 : List ℤ := [
  47000000, 250000000, -1290421000000, 300000000, 0, 0, 47000000, 4670000000, -32686464000000, -6100000000, -100000000000, 0, 47000000, 3490000000,
  548678000000, 0, 0, 0, 47000000, 2370000000, 6663308000000, -2200000000, -19000000000, 0, 46000000, 980000000, 1572084000000, 0, 0, 0, 46000000,
  2040000000, 14954262000000, -700000000, 6000000000, 0, 46000000, 3720000000, 6691693000000, -2200000000, -19000000000, 0, 45000000, 6190000000,
  -235287000000, 0, 0, 0, 44000000, 2960000000, 32967001000000, -100000000, 27000000000, 0, 44000000, 3820000000, -1671943000000, -5600000000,
  -66000000000, 0, 43000000, 5820000000, 1179063000000, 0, 0, 0, 43000000, 70000000, 34152617000000, 1700000000, 49000000000, 0, 43000000,
  3710000000, 6514773000000, -300000000, 0, 0, 43000000, 5620000000, 15732000000, -2500000000, -23000000000, 0, 43000000, 5800000000, 8351233000000,
  -2200000000, -19000000000, 0, 42000000, 270000000, 7740199000000, 1500000000, 25000000000, 0]

/-- part of `ML0_DATA` -/
def ml0I_16 : List ℤ := [
  42000000, 6140000000, 15385020000000, -700000000, 6000000000, 0, 42000000, 6130000000, 7285051000000, -4100000000, -41000000000, 0, 41000000,
  1270000000, 32757451000000, 4200000000, 78000000000, 0, 41000000, 4460000000, 8275722000000, 1500000000, 25000000000, 0, 40000000, 230000000,
  8381661000000, 1500000000, 25000000000, 0, 40000000, 5870000000, -766864000000, 2500000000, 29000000000, 0, 40000000, 1660000000, 254431000000, 0,
  0, 0, 40000000, 400000000, 9027981000000, -400000000, 0, 0, 40000000, 2960000000, 7777936000000, 1500000000, 25000000000, 0, 39000000, 4670000000,
  33943068000000, 6100000000, 100000000000, 0, 39000000, 3520000000, 8326062000000, 1500000000, 25000000000, 0, 39000000, 3750000000, 21013887000000,
  -6500000000, -57000000000, 0, 39000000, 5600000000, 606978000000, 0, 0, 0, 39000000, 1190000000, 8331321000000, 1500000000, 25000000000, 0,
  39000000, 2840000000, 7211433000000, -2200000000, -19000000000, 0, 38000000, 670000000, 7216693000000, -2200000000, -19000000000, 0]

/-- part of `ML0_DATA` -/
def ml0I_17 : List ℤ := [
  38000000, 6220000000, 25161867000000, 600000000, 28000000000, 0, 38000000, 4400000000, 7806322000000, 1500000000, 25000000000, 0, 38000000,
  4160000000, 9179168000000, -2200000000, -19000000000, 0, 37000000, 4730000000, 14991999000000, -700000000, 6000000000, 0, 36000000, 350000000,
  67514000000, -600000000, -7000000000, 0, 36000000, 3700000000, 25266611000000, -1600000000, 0, 0, 36000000, 5390000000, 16328796000000, -700000000,
  6000000000, 0, 35000000, 1440000000, 7174248000000, -2200000000, -19000000000, 0, 35000000, 5000000000, 15684730000000, -4400000000, -38000000000,
  0, 35000000, 390000000, -15419000000, -2200000000, -19000000000, 0, 35000000, 6070000000, 15020385000000, -700000000, 6000000000, 0, 34000000,
  6010000000, 7371797000000, -2200000000, -19000000000, 0, 34000000, 960000000, -16623626000000, -3400000000, -54000000000, 0, 33000000, 6240000000,
  9479368000000, 1500000000, 25000000000, 0, 33000000, 3210000000, 23661896000000, 5200000000, 82000000000, 0, 33000000, 4060000000, 8311418000000,
  -2200000000, -19000000000, 0]

/-- part of `ML0_DATA` -/
def ml0I_18 : List ℤ := [
  33000000, 2400000000, 1965105000000, 0, 0, 0, 33000000, 5170000000, 15489785000000, -700000000, 6000000000, 0, 33000000, 5030000000,
  21986540000000, 900000000, 31000000000, 0, 33000000, 4100000000, 16691140000000, 2700000000, 46000000000, 0, 33000000, 5130000000, 47114589000000,
  1700000000, 63000000000, 0, 33000000, 4450000000, 8917184000000, 1500000000, 25000000000, 0, 33000000, 4230000000, 2078000000, 0, 0, 0, 32000000,
  2330000000, 75251000000, 1500000000, 25000000000, 0, 32000000, 2100000000, 7253878000000, -2200000000, -19000000000, 0, 32000000, 3110000000,
  -224000000, 1500000000, 25000000000, 0, 32000000, 4430000000, 16640462000000, -700000000, 6000000000, 0, 32000000, 5680000000, 8328363000000, 0, 0,
  0, 31000000, 5320000000, 8329020000000, 3000000000, 50000000000, 0, 31000000, 3700000000, 16118093000000, -700000000, 6000000000, 0, 30000000,
  3670000000, 16721817000000, -700000000, 6000000000, 0, 30000000, 5270000000, -1881492000000, -1200000000, -15000000000, 0]

/-- part of `ML0_DATA` -/
def ml0I_19 : List ℤ := [
  30000000, 5720000000, 8157839000000, -2200000000, -19000000000, 0, 29000000, 5730000000, -18400313000000, -6700000000, -94000000000, 0, 29000000,
  2760000000, 16000000000, -2200000000, -19000000000, 0, 29000000, 1750000000, 8879447000000, 1500000000, 25000000000, 0, 29000000, 320000000,
  8851061000000, 1500000000, 25000000000, 0, 29000000, 900000000, 14704903000000, 3700000000, 57000000000, 0, 28000000, 2900000000, 15595723000000,
  -700000000, 6000000000, 0, 28000000, 5880000000, 16864631000000, 200000000, 24000000000, 0, 28000000, 630000000, 16869234000000, -2800000000,
  -26000000000, 0, 28000000, 4040000000, -18609863000000, -2400000000, -43000000000, 0, 27000000, 5830000000, 6727736000000, -5900000000,
  -63000000000, 0, 27000000, 6120000000, 418752000000, 4300000000, 51000000000, 0, 27000000, 140000000, 41157131000000, 3900000000, 81000000000, 0,
  26000000, 3800000000, 15542000000, 0, 0, 0, 26000000, 1680000000, 50181698000000, 4800000000, 99000000000, -1000000000, 26000000, 320000000,
  315469000000, 0, 0, 0]

/-- part of `ML0_DATA` -/
def ml0I_20 : List ℤ := [
  25000000, 5670000000, 19188000000, 300000000, 0, 0, 25000000, 3160000000, 62133000000, -2200000000, -19000000000, 0, 25000000, 3760000000,
  15502939000000, -700000000, 6000000000, 0, 25000000, 4530000000, 45999961000000, -2000000000, 19000000000, 0, 24000000, 3210000000, 837851000000,
  -4400000000, -51000000000, 0, 24000000, 2820000000, 38157596000000, 300000000, 37000000000, 0, 24000000, 5210000000, 15540124000000, -700000000,
  6000000000, 0, 24000000, 260000000, 14218576000000, 0, 13000000000, 0, 24000000, 3010000000, 15545384000000, -700000000, 6000000000, 0, 24000000,
  1160000000, -17424247000000, -600000000, -21000000000, 0, 23000000, 2340000000, -67574000000, 600000000, 7000000000, 0, 23000000, 2440000000,
  18024000000, -1900000000, -22000000000, 0, 23000000, 3700000000, 469400000000, 0, 0, 0, 23000000, 720000000, 7136511000000, -2200000000,
  -19000000000, 0, 23000000, 4500000000, 15582569000000, -700000000, 6000000000, 0, 23000000, 2800000000, -16586395000000, -4900000000, -72000000000,
  0]

/-- part of `ML0_DATA` -/
def ml0I_21 : List ℤ := [
  23000000, 1510000000, 80182000000, 0, 0, 0, 23000000, 1090000000, 5261583000000, -1500000000, -12000000000, 0, 23000000, 560000000, 54956954000000,
  -500000000, 44000000000, 0, 23000000, 4010000000, 8550860000000, -2200000000, -19000000000, 0, 23000000, 4460000000, 38995448000000, -4100000000,
  -14000000000, 0, 23000000, 3820000000, 2358126000000, 0, 0, 0, 22000000, 3770000000, 32271125000000, 500000000, 34000000000, 0, 22000000,
  820000000, 15935775000000, -700000000, 6000000000, 0, 22000000, 1070000000, 24013421000000, -2900000000, -13000000000, 0, 22000000, 400000000,
  8940078000000, -2200000000, -19000000000, 0, 22000000, 2060000000, 15700489000000, -700000000, 6000000000, 0, 22000000, 4270000000, 15124002000000,
  -5000000000, -45000000000, 0, 21000000, 1160000000, 56071583000000, 3200000000, 88000000000, 0, 21000000, 5580000000, 9572189000000, -2200000000,
  -19000000000, 0, 20000000, 1700000000, -17273000000, -3700000000, -44000000000, 0, 20000000, 3050000000, 214617000000, 0, 0, 0]

/-- part of `ML0_DATA` -/
def ml0I_22 : List ℤ := [
  20000000, 4410000000, 8391048000000, -2200000000, -19000000000, 0, 20000000, 5950000000, 23869145000000, 2400000000, 56000000000, 0, 20000000,
  420000000, 40947927000000, -4700000000, -21000000000, 0, 19000000, 1390000000, 5818897000000, 300000000, 10000000000, 0, 19000000, 710000000,
  23873747000000, -700000000, 6000000000, 0, 19000000, 2810000000, 7291615000000, -2200000000, -19000000000, 0, 19000000, 5090000000, 8428018000000,
  -2200000000, -19000000000, 0, 19000000, 4140000000, 6518187000000, -1600000000, -12000000000, 0, 19000000, 3850000000, 21330000000, 0, 0, 0,
  18000000, 660000000, 14445046000000, -700000000, 6000000000, 0, 18000000, 1650000000, 966000000, -4000000000, -48000000000, 0, 18000000,
  5640000000, -17143709000000, -6800000000, -94000000000, 0, 18000000, 6010000000, 7736432000000, -2200000000, -19000000000, 0, 18000000, 2740000000,
  31153083000000, -1900000000, 5000000000, 0, 18000000, 4580000000, 6116355000000, -2200000000, -19000000000, 0, 18000000, 2280000000, 46401000000,
  300000000, 0, 0]

/-- part of `ML0_DATA` -/
def ml0I_23 : List ℤ := [
  18000000, 3800000000, 10213597000000, 1400000000, 25000000000, 0, 18000000, 2840000000, 56281132000000, -1100000000, 36000000000, 0, 18000000,
  3530000000, 8249062000000, 1500000000, 25000000000, 0, 17000000, 4430000000, 20871911000000, -3000000000, -13000000000, 0, 17000000, 4440000000,
  627596000000, 0, 0, 0, 17000000, 1850000000, 628308000000, 0, 0, 0, 17000000, 1190000000, 8408321000000, 2000000000, 25000000000, 0, 17000000,
  1950000000, 7214056000000, -2000000000, -19000000000, 0, 17000000, 1570000000, 7214070000000, -2000000000, -19000000000, 0, 17000000, 1650000000,
  13870811000000, -6000000000, -60000000000, 0, 17000000, 300000000, 22542000000, -4000000000, -44000000000, 0, 17000000, 2620000000, -119445000000,
  0, 0, 0, 16000000, 4870000000, 5747909000000, 2000000000, 32000000000, 0, 16000000, 4450000000, 14339108000000, -1000000000, 6000000000, 0,
  16000000, 1830000000, 41366680000000, 0, 30000000000, 0, 16000000, 4530000000, 16309618000000, -3000000000, -23000000000, 0]

/-- part of `ML0_DATA` -/
def ml0I_24 : List ℤ := [
  16000000, 2540000000, 15542754000000, -1000000000, 6000000000, 0, 16000000, 6050000000, 1203646000000, 0, 0, 0, 15000000, 5200000000,
  2751147000000, 0, 0, 0, 15000000, 1800000000, -10699924000000, -5000000000, -69000000000, 0, 15000000, 400000000, 22824391000000, -3000000000,
  -20000000000, 0, 15000000, 2100000000, 30666756000000, -6000000000, -39000000000, 0, 15000000, 2100000000, 6010417000000, -2000000000,
  -19000000000, 0, 15000000, 700000000, -23729470000000, -5000000000, -75000000000, 0, 15000000, 1400000000, 14363691000000, -1000000000, 6000000000,
  0, 15000000, 5800000000, 16900689000000, -2000000000, 0, 0, 15000000, 5200000000, 23800458000000, 3000000000, 53000000000, 0, 15000000, 5300000000,
  6035000000000, -2000000000, -19000000000, 0, 15000000, 1200000000, 8251139000000, 2000000000, 25000000000, 0, 15000000, 3600000000, -8860000000, 0,
  0, 0, 15000000, 800000000, 882739000000, 0, 0, 0, 15000000, 3000000000, 1021329000000, 0, 0, 0]

/-- part of `ML0_DATA` -/
def ml0I_25 : List ℤ := [
  15000000, 600000000, 23296107000000, 1000000000, 31000000000, 0, 14000000, 5400000000, 7227181000000, 2000000000, 25000000000, 0, 14000000,
  100000000, 7213352000000, -2000000000, -19000000000, 0, 14000000, 4000000000, 15506706000000, 3000000000, 50000000000, 0, 14000000, 3400000000,
  7214774000000, -2000000000, -19000000000, 0, 14000000, 4600000000, 6665385000000, -2000000000, -19000000000, 0, 14000000, 100000000, -8636000000,
  -2000000000, -22000000000, 0, 14000000, 3100000000, 15465202000000, -1000000000, 6000000000, 0, 14000000, 4900000000, 508863000000, 0, 0, 0,
  14000000, 3500000000, 8406244000000, 2000000000, 25000000000, 0, 14000000, 1300000000, 13313497000000, -8000000000, -82000000000, 0, 14000000,
  2800000000, 49276619000000, -3000000000, 0, 0, 14000000, 100000000, 30528194000000, -3000000000, -10000000000, 0, 13000000, 1700000000,
  25128050000000, 1000000000, 31000000000, 0, 13000000, 2900000000, 14128405000000, -1000000000, 6000000000, 0, 13000000, 3400000000, 57395761000000,
  3000000000, 80000000000, 0]

/-- part of `ML0_DATA` -/
def ml0I_26 : List ℤ := [
  13000000, 2700000000, 13029546000000, -1000000000, 6000000000, 0, 13000000, 3900000000, 7802556000000, -2000000000, -19000000000, 0, 13000000,
  1600000000, 8258802000000, -2000000000, -19000000000, 0, 13000000, 2200000000, 8417709000000, -2000000000, -19000000000, 0, 13000000, 700000000,
  9965210000000, -2000000000, -19000000000, 0, 13000000, 3400000000, 50391247000000, 0, 48000000000, 0, 13000000, 3000000000, 7134433000000,
  -2000000000, -19000000000, 0, 13000000, 2900000000, 30599182000000, -5000000000, -31000000000, 0, 13000000, 3600000000, -9723857000000, 1000000000,
  0, 0, 13000000, 4800000000, 7607084000000, -2000000000, -19000000000, 0, 12000000, 800000000, 23837689000000, 1000000000, 35000000000, 0, 12000000,
  3600000000, 4409000000, -4000000000, -44000000000, 0, 12000000, 5000000000, 16657031000000, 3000000000, 50000000000, 0, 12000000, 4400000000,
  16657735000000, 3000000000, 50000000000, 0, 12000000, 1100000000, 15578803000000, -4000000000, -38000000000, 0, 12000000, 6000000000, -11490000000,
  0, 0, 0]

/-- part of `ML0_DATA` -/
def ml0I_27 : List ℤ := [
  12000000, 1900000000, 8164398000000, 0, 0, 0, 12000000, 2400000000, 31852372000000, -4000000000, -17000000000, 0, 12000000, 2400000000,
  6607085000000, -2000000000, -19000000000, 0, 12000000, 4200000000, 8359870000000, 0, 0, 0, 12000000, 500000000, 5799713000000, -2000000000,
  -19000000000, 0, 12000000, 2700000000, 7220622000000, 0, 0, 0, 12000000, 4300000000, -139720000000, 0, 0, 0, 12000000, 2300000000, 13728836000000,
  -2000000000, -16000000000, 0, 11000000, 3600000000, 14912146000000, 1000000000, 31000000000, 0, 11000000, 4700000000, 14916748000000, -2000000000,
  -19000000000, 0]

/-- `ML0_DATA` — eph_data.h:316 -/
def ml0I : List ℤ :=
  ml0I_0 ++ (ml0I_1 ++ (ml0I_2 ++ (ml0I_3 ++ (ml0I_4 ++ (ml0I_5 ++ (ml0I_6 ++ (ml0I_7 ++ (ml0I_8 ++ (ml0I_9 ++ (ml0I_10 ++ (ml0I_11 ++ (ml0I_12 ++ (ml0I_13 ++ (ml0I_14 ++ (ml0I_15 ++ (ml0I_16 ++ (ml0I_17 ++ (ml0I_18 ++ (ml0I_19 ++ (ml0I_20 ++ (ml0I_21 ++ (ml0I_22 ++ (ml0I_23 ++ (ml0I_24 ++ (ml0I_25 ++ (ml0I_26 ++ ml0I_27))))))))))))))))))))))))))

/-- part of `ML1_DATA` -/
def ml1I_0 : List ℤ := [
  1676800000, 4669260000, 628301955000, -26600000, 100000000, -5000000, 516420000, 3372100000, 6585760910000, -2158000000, -18900000000, 90000000,
  413830000, 5727700000, 14914452335000, -635000000, 6200000000, -40000000, 371150000, 3969500000, 7700389469000, 1550000000, 25000000000,
  -120000000, 275600000, 741600000, 8956993380000, 1496000000, 25100000000, -130000000, 245990000, 4225300000, -2301200000, 1523000000, 25100000000,
  -120000000, 71180000, 144300000, 7842364820000, -2211000000, -19000000000, 80000000, 61280000, 2499800000, 16171056250000, -688000000, 6000000000,
  0, 45160000, 443000000, 8399679100000, -360000000, 3000000000, 0, 40480000, 5771000000, 14286150380000, -610000000, 6000000000, 0, 37470000,
  4626000000, 1256603910000, -50000000, 0, 0, 37070000, 3415000000, 5957458950000, -2130000000, -19000000000, 100000000, 36490000, 1800000000,
  23243143760000, 890000000, 31000000000, -200000000, 24380000, 42000000, 16029080890000, 3070000000, 50000000000, -200000000, 21650000, 1017000000,
  -1742930510000, -3680000000, -44000000000, 200000000, 19230000, 3097000000, 17285684800000, 3020000000, 50000000000, -300000000]

/-- part of `ML1_DATA` -/
def ml1I_1 : List ℤ := [
  16920000, 1280000000, 328600000, 1520000000, 25000000000, -100000000, 13610000, 298000000, 8326390200000, 3050000000, 50000000000, -200000000,
  12930000, 4013000000, 7072087500000, 1580000000, 25000000000, -100000000, 12760000, 4413000000, 8330992600000, 0, 0, 0, 12700000, 101000000,
  8470666800000, -2240000000, -19000000000, 100000000, 10970000, 1203000000, 22128515200000, -2820000000, -13000000000, 0, 10880000, 2545000000,
  15542754300000, -660000000, 6000000000, 0, 8350000, 190000000, 7214062900000, -2180000000, -19000000000, 100000000, 7340000, 4855000000,
  24499747700000, 830000000, 31000000000, -200000000, 6860000, 5130000000, 13799823800000, -4340000000, -38000000000, 200000000, 6310000, 930000000,
  -486326600000, -3730000000, -44000000000, 0, 5850000, 699000000, 9585295300000, 1500000000, 25000000000, 0, 5660000, 4073000000, 8328339100000,
  1500000000, 25000000000, 0, 5660000, 638000000, 8329043700000, 1500000000, 25000000000, 0, 5390000, 2472000000, -1952480000000, 600000000,
  7000000000, 0, 5090000, 2880000000, -711300000, 0, 0, 0]

/-- part of `ML1_DATA` -/
def ml1I_2 : List ℤ := [
  4690000, 3560000000, 30457206600000, -1300000000, 12000000000, 0, 3870000, 780000000, -352300000, 0, 0, 0, 3780000, 1840000000, 22614841800000,
  900000000, 31000000000, 0, 3620000, 5530000000, -695876100000, 600000000, 7000000000, 0, 3170000, 2800000000, 16728370500000, 1200000000,
  28000000000, 0, 3030000, 6070000000, 157734400000, 0, 0, 0, 3000000, 2530000000, 33757000000, -300000000, -4000000000, 0, 2950000, 4160000000,
  31571835200000, 2400000000, 56000000000, 0, 2890000, 5980000000, 7211761700000, -700000000, 6000000000, 0, 2850000, 2060000000, 15540453100000,
  900000000, 31000000000, 0, 2830000, 2650000000, 2629800000, 0, 0, 0, 2820000, 6170000000, 15545055500000, -2200000000, -19000000000, 0, 2780000,
  1230000000, -39814900000, 0, 0, 0, 2720000, 3820000000, 7216364100000, -3700000000, -44000000000, 0, 2700000, 4370000000, 70987700000, -1900000000,
  -22000000000, 0, 2560000, 5810000000, 13657848400000, -600000000, 6000000000, 0]

/-- part of `ML1_DATA` -/
def ml1I_3 : List ℤ := [
  2440000, 5640000000, -223700000, 1500000000, 25000000000, 0, 2400000, 2960000000, 8311770700000, -2200000000, -19000000000, 0, 2390000, 870000000,
  -33781400000, 300000000, 4000000000, 0, 2160000, 2310000000, 15999500000, -2200000000, -19000000000, 0, 1860000, 3460000000, 5329157000000,
  -2100000000, -19000000000, 0, 1690000, 2400000000, 24357772000000, 4600000000, 75000000000, 0, 1610000, 5800000000, 8329403000000, 1500000000,
  25000000000, 0, 1610000, 5200000000, 8327980000000, 1500000000, 25000000000, 0, 1600000, 4260000000, 23385119000000, -2900000000, -13000000000, 0,
  1560000, 1260000000, 550755000000, 0, 0, 0, 1550000, 1250000000, 21500213000000, -2800000000, -13000000000, 0, 1520000, 600000000, -16921000000,
  -3700000000, -44000000000, 0, 1500000, 2710000000, -79630000000, 0, 0, 0, 1500000, 5290000000, 15542000000, 0, 0, 0, 1480000, 1060000000,
  -2371232000000, -3700000000, -44000000000, 0, 1410000, 770000000, 8328691000000, 1500000000, 25000000000, 0]

/-- part of `ML1_DATA` -/
def ml1I_4 : List ℤ := [
  1410000, 3670000000, 7143075000000, -300000000, 0, 0, 1380000, 5450000000, 25614376000000, 4500000000, 75000000000, 0, 1290000, 4900000000,
  23871446000000, 900000000, 31000000000, 0, 1260000, 4030000000, 141975000000, -3800000000, -44000000000, 0, 1240000, 6010000000, 522369000000, 0,
  0, 0, 1200000, 4940000000, -10071622000000, -5200000000, -69000000000, 0, 1180000, 5070000000, -15419000000, -2200000000, -19000000000, 0, 1070000,
  3490000000, 23452693000000, -3400000000, -20000000000, 0, 1040000, 4780000000, 17495234000000, -1300000000, 0, 0, 1030000, 1440000000,
  -18049000000, -2200000000, -19000000000, 0, 1020000, 5630000000, 15542402000000, -700000000, 6000000000, 0, 1020000, 2590000000, 15543107000000,
  -700000000, 6000000000, 0, 1000000, 4110000000, -6559000000, -1900000000, -22000000000, 0, 970000, 80000000, 15400779000000, 3100000000,
  50000000000, 0, 960000, 5840000000, 31781385000000, -1900000000, 5000000000, 0, 940000, 1080000000, 8328363000000, 0, 0, 0]

/-- part of `ML1_DATA` -/
def ml1I_5 : List ℤ := [
  940000, 2460000000, 16799358000000, -700000000, 6000000000, 0, 940000, 1690000000, 6376211000000, 2200000000, 32000000000, 0, 930000, 3640000000,
  8329020000000, 3000000000, 50000000000, 0, 930000, 2650000000, 16655082000000, 4600000000, 75000000000, 0, 900000, 1900000000, 15056428000000,
  -4400000000, -38000000000, 0, 890000, 1590000000, 52969000000, 0, 0, 0, 880000, 2020000000, -8257704000000, -3400000000, -47000000000, 0, 880000,
  3020000000, 7213711000000, -2200000000, -19000000000, 0, 870000, 500000000, 7214415000000, -2200000000, -19000000000, 0, 870000, 490000000,
  16659684000000, 1500000000, 25000000000, 0, 820000, 5640000000, -4931000000, 1500000000, 25000000000, 0, 790000, 5170000000, 13171522000000,
  -4300000000, -38000000000, 0, 760000, 3600000000, 29828905000000, -1300000000, 12000000000, 0, 760000, 4080000000, 24567322000000, 300000000,
  24000000000, 0, 760000, 4580000000, 1884906000000, -100000000, 0, 0, 730000, 330000000, 31713811000000, -1400000000, 12000000000, 0]

/-- part of `ML1_DATA` -/
def ml1I_6 : List ℤ := [
  730000, 930000000, 32828439000000, 2400000000, 56000000000, 0, 710000, 5910000000, 38785898000000, 200000000, 37000000000, 0, 690000, 2200000000,
  15613742000000, -2500000000, -16000000000, 0, 660000, 3870000000, 15732000000, -2500000000, -23000000000, 0, 660000, 860000000, 25823926000000,
  200000000, 24000000000, 0, 650000, 2520000000, 8170957000000, 1500000000, 25000000000, 0, 630000, 180000000, 8322132000000, -300000000, 0, 0,
  600000, 5840000000, 8326062000000, 1500000000, 25000000000, 0, 600000, 5150000000, 8331321000000, 1500000000, 25000000000, 0, 600000, 2180000000,
  8486426000000, 1500000000, 25000000000, 0, 580000, 2300000000, -1731000000, -4000000000, -44000000000, 0, 580000, 5430000000, 14357138000000,
  -2000000000, -16000000000, 0, 570000, 3090000000, 8294910000000, 2000000000, 29000000000, 0, 570000, 4670000000, -8362473000000, -1000000000,
  -21000000000, 0, 560000, 4150000000, 16833151000000, -1000000000, 0, 0, 540000, 1930000000, 7056329000000, -2000000000, -19000000000, 0]

/-- part of `ML1_DATA` -/
def ml1I_7 : List ℤ := [
  540000, 5270000000, 8315574000000, -2000000000, -19000000000, 0, 520000, 5600000000, 8311418000000, -2000000000, -19000000000, 0, 520000,
  2700000000, -77552000000, 0, 0, 0, 510000, 4300000000, 7230984000000, 2000000000, 25000000000, 0, 500000, 400000000, -508000000, 0, 0, 0, 490000,
  5400000000, 7211433000000, -2000000000, -19000000000, 0, 490000, 4400000000, 7216693000000, -2000000000, -19000000000, 0, 490000, 4300000000,
  16864631000000, 0, 24000000000, 0, 490000, 2200000000, 16869234000000, -3000000000, -26000000000, 0, 470000, 6100000000, 627596000000, 0, 0, 0,
  470000, 5000000000, 12619000000, 1000000000, 7000000000, 0, 450000, 4900000000, -8815018000000, -5000000000, -69000000000, 0, 440000, 1600000000,
  62133000000, -2000000000, -19000000000, 0, 420000, 2900000000, -13118000000, -4000000000, -44000000000, 0, 420000, 4100000000, -119445000000, 0, 0,
  0, 410000, 4300000000, 22756817000000, -3000000000, -13000000000, 0]

/-- part of `ML1_DATA` -/
def ml1I_8 : List ℤ := [
  410000, 3600000000, 8288877000000, 2000000000, 25000000000, 0, 400000, 500000000, 6663308000000, -2000000000, -19000000000, 0, 400000, 1100000000,
  8368506000000, 2000000000, 25000000000, 0, 390000, 4100000000, 6443786000000, 2000000000, 25000000000, 0, 390000, 3100000000, 16657383000000,
  3000000000, 50000000000, 0, 380000, 100000000, 16657031000000, 3000000000, 50000000000, 0, 380000, 3000000000, 16657735000000, 3000000000,
  50000000000, 0, 380000, 4600000000, 23942433000000, -1000000000, 9000000000, 0, 370000, 4300000000, 15385020000000, -1000000000, 6000000000, 0,
  370000, 5000000000, 548678000000, 0, 0, 0, 360000, 1800000000, 7213352000000, -2000000000, -19000000000, 0, 360000, 1700000000, 7214774000000,
  -2000000000, -19000000000, 0, 350000, 1100000000, 7777936000000, 2000000000, 25000000000, 0, 350000, 1600000000, -8860000000, 0, 0, 0, 350000,
  4400000000, 23869145000000, 2000000000, 56000000000, 0, 350000, 2000000000, 6691693000000, -2000000000, -19000000000, 0]

/-- part of `ML1_DATA` -/
def ml1I_9 : List ℤ := [
  340000, 1300000000, -1185616000000, -2000000000, -22000000000, 0, 340000, 2200000000, 23873747000000, -1000000000, 6000000000, 0, 330000,
  2000000000, -235287000000, 0, 0, 0, 330000, 3100000000, 17913987000000, 3000000000, 50000000000, 0, 330000, 1000000000, 8351233000000, -2000000000,
  -19000000000, 0]

/-- `ML1_DATA` — eph_data.h:317 -/
def ml1I : List ℤ :=
  ml1I_0 ++ (ml1I_1 ++ (ml1I_2 ++ (ml1I_3 ++ (ml1I_4 ++ (ml1I_5 ++ (ml1I_6 ++ (ml1I_7 ++ (ml1I_8 ++ ml1I_9))))))))

/-- part of `ML2_DATA` -/
def ml2I_0 : List ℤ := [
  4870000, 4669300000, 628301960000, -27000000, 0, -10000000, 2280000, 2674600000, -2301200000, 1523000000, 25000000000, -120000000, 1500000,
  3372000000, 6585760910000, -2160000000, -19000000000, 100000000, 1200000, 5728000000, 14914452330000, -640000000, 6000000000, 0, 1080000,
  3969000000, 7700389470000, 1550000000, 25000000000, -100000000, 800000, 742000000, 8956993380000, 1500000000, 25000000000, -100000000, 254000,
  6002000000, 328600000, 1520000000, 25000000000, -100000000, 210000, 144000000, 7842364800000, -2210000000, -19000000000, 0, 180000, 2500000000,
  16171056200000, -700000000, 6000000000, 0, 130000, 440000000, 8399679100000, -400000000, 3000000000, 0, 126000, 5030000000, 8326390200000,
  3000000000, 50000000000, 0, 120000, 5770000000, 14286150400000, -600000000, 6000000000, 0, 118000, 5960000000, 8330992600000, 0, 0, 0, 110000,
  1800000000, 23243143800000, 900000000, 31000000000, 0, 110000, 3420000000, 5957459000000, -2100000000, -19000000000, 0, 110000, 4630000000,
  1256603900000, -100000000, 0, 0]

/-- part of `ML2_DATA` -/
def ml2I_1 : List ℤ := [
  99000, 4700000000, -711300000, 0, 0, 0, 70000, 40000000, 16029080900000, 3100000000, 50000000000, 0, 70000, 5140000000, 8328339100000, 1500000000,
  25000000000, 0, 70000, 5850000000, 8329043700000, 1500000000, 25000000000, 0, 60000, 1020000000, -1742930500000, -3700000000, -44000000000, 0,
  60000, 3100000000, 17285684800000, 3000000000, 50000000000, 0, 54000, 5690000000, -352000000, 0, 0, 0, 43000, 520000000, 15542000000, 0, 0, 0,
  41000, 2030000000, 2630000000, 0, 0, 0, 40000, 100000000, 8470667000000, -2200000000, -19000000000, 0, 40000, 4010000000, 7072088000000,
  1600000000, 25000000000, 0, 36000, 2930000000, -8860000000, -300000000, 0, 0, 30000, 1200000000, 22128515000000, -2800000000, -13000000000, 0,
  30000, 2540000000, 15542754000000, -700000000, 6000000000, 0, 27000, 4430000000, 7211762000000, -700000000, 6000000000, 0, 26000, 510000000,
  15540453000000, 900000000, 31000000000, 0]

/-- part of `ML2_DATA` -/
def ml2I_2 : List ℤ := [
  26000, 1440000000, 15545055000000, -2200000000, -19000000000, 0, 25000, 5370000000, 7216364000000, -3700000000, -44000000000, 0]

/-- `ML2_DATA` — eph_data.h:318 -/
def ml2I : List ℤ :=
  ml2I_0 ++ (ml2I_1 ++ ml2I_2)

/-- part of `ML3_DATA` -/
def ml3I_0 : List ℤ := [
  12000, 1041000000, -2301200000, 1520000000, 25000000000, -100000000, 1700, 310000000, -711000000, 0, 0, 0]

/-- `ML3_DATA` — eph_data.h:319 -/
def ml3I : List ℤ :=
  ml3I_0

/-- part of `nutB_DATA` -/
def nutBI_0 : List ℤ := [
  2182400000, -33757050000, 36000, -1720000000000, 920000000000, 3506900000, 1256663930000, 11000, -132000000000, 57000000000, 1337500000,
  16799418200000, -51000, -23000000000, 10000000000, 4364900000, -67514100000, 72000, 21000000000, -9000000000, 40000000, -628302000000, 0,
  -14000000000, 0, 2360000000, 8328691000000, 0, 7000000000, 0, 3460000000, 1884966000000, 0, -5000000000, 2000000000, 5440000000, 16833175000000, 0,
  -4000000000, 2000000000, 3690000000, 25128110000000, 0, -3000000000, 0, 3550000000, 628362000000, 0, 2000000000, 0]

/-- `nutB_DATA` — eph_data.h:48 -/
def nutBI : List ℤ :=
  nutBI_0

end Verif.EphTab
