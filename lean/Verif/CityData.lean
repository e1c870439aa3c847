import Mathlib.Data.Int.Notation

/-!
# The table of places — /repo/mylib/lat_lon_data.cpp:31-62, generated by tools/gen_cities.py

Each C string of the table is the name of a province followed, for each place, by a blank, four code characters and the name of the place; here it is given in these parts.
-/

namespace Verif.City

/-- one string of the table: the province, and code and name of each place -/
structure Row where
  prov : List Char
  recs : List (List Char × List Char)

/-- part 0 of the places of lat_lon_data.cpp:31 -/
def r0_0 : List (List Char × List Char) := [
  (['d','s','h','N'], ['天','安','门']),
  (['d','s','h','O'], ['北','京','市']),
  (['d','j','h','8'], ['房','山','区']),
  (['d','i','h','K'], ['大','兴','区']),
  (['d','r','h','Q'], ['崇','文','区']),
  (['d','t','h','Q'], ['朝','阳','区']),
  (['d','t','h','d'], ['通','州','区']),
  (['d','v','h','I'], ['海','淀','区']),
  (['d','u','h','P'], ['东','城','区']),
  (['d','t','h','M'], ['西','城','区']),
  (['d','q','h','L'], ['宣','武','区']),
  (['d','p','h','H'], ['丰','台','区']),
  (['d','s','h','D'], ['石','景','山','区']),
  (['d','u','h','6'], ['门','头','沟','区']),
  (['e','D','h','E'], ['昌','平','区']),
  (['e','8','h','d'], ['顺','义','区']),
  (['e','J','h','c'], ['怀','柔','区']),
  (['e','8','i','7'], ['平','谷','区']),
  (['e','R','g','w'], ['延','庆','县']),
  (['e','M','h','o'], ['密','云','县'])]

/-- lat_lon_data.cpp:31 -/
def row0 : Row := ⟨['北','京','市'], r0_0⟩

/-- part 0 of the places of lat_lon_data.cpp:32 -/
def r1_0 : List (List Char × List Char) := [
  (['Q','5','k','I'], ['福','州','市']),
  (['O','T','j','5'], ['厦','门','市']),
  (['O','V','i','d'], ['漳','州','市']),
  (['O','r','j','e'], ['泉','州','市']),
  (['Q','G','i','b'], ['三','明','市']),
  (['P','6','i','2'], ['龙','岩','市']),
  (['Q','d','j','A'], ['南','平','市']),
  (['Q','e','k','V'], ['宁','德','市']),
  (['P','Q','k','0'], ['莆','田','市']),
  (['Q','d','j','A'], ['延','平','区']),
  (['Q','E','i','a'], ['三','元','区']),
  (['Q','G','i','c'], ['梅','列','区']),
  (['P','6','i','2'], ['新','罗','区']),
  (['Q','e','k','V'], ['蕉','城','区']),
  (['P','R','k','6'], ['涵','江','区']),
  (['P','Q','k','0'], ['城','厢','区']),
  (['P','Q','k','1'], ['荔','城','区']),
  (['P','J','k','5'], ['秀','屿','区']),
  (['P','7','j','r'], ['泉','港','区']),
  (['O','v','j','e'], ['洛','江','区']),
  (['O','t','j','a'], ['丰','泽','区']),
  (['O','t','j','a'], ['鲤','城','区']),
  (['O','i','j','9'], ['同','安','区']),
  (['O','b','j','E'], ['翔','安','区']),
  (['O','Y','j','6'], ['集','美','区']),
  (['O','R','j','5'], ['思','明','区']),
  (['O','V','j','5'], ['湖','里','区']),
  (['O','S','i','x'], ['海','沧','区']),
  (['O','V','i','h'], ['龙','文','区']),
  (['O','V','i','d'], ['芗','城','区']),
  (['O','n','j','Z'], ['晋','江','市']),
  (['O','i','j','d'], ['石','狮','市']),
  (['O','R','i','n'], ['龙','海','市']),
  (['P','I','i','P'], ['漳','平','市']),
  (['O','w','j','N'], ['南','安','市']),
  (['P','x','i','M'], ['永','安','市']),
  (['R','2','j','J'], ['建','瓯','市']),
  (['R','K','j','7'], ['建','阳','市']),
  (['R','k','j','2'], ['武','夷','山','市']),
  (['R','M','i','T'], ['邵','武','市'])]

/-- part 1 of the places of lat_lon_data.cpp:32 -/
def r1_1 : List (List Char × List Char) := [
  (['R','5','k','d'], ['福','安','市']),
  (['R','K','l','D'], ['福','鼎','市']),
  (['P','w','k','V'], ['长','乐','市']),
  (['P','h','k','N'], ['福','清','市']),
  (['Q','3','k','J'], ['仓','山','区']),
  (['Q','4','k','I'], ['台','江','区']),
  (['Q','5','k','I'], ['鼓','楼','区']),
  (['Q','5','k','J'], ['晋','安','区']),
  (['P','y','k','R'], ['马','尾','区']),
  (['O','h','h','i'], ['永','定','县']),
  (['N','e','i','0'], ['饶','平','县']),
  (['N','h','i','B'], ['诏','安','县']),
  (['N','v','i','K'], ['云','霄','县']),
  (['O','8','i','b'], ['漳','浦','县']),
  (['N','g','i','Q'], ['东','山','县']),
  (['O','Q','j','J'], ['金','门','县']),
  (['O','b','i','j'], ['长','泰','县']),
  (['O','M','i','I'], ['平','和','县']),
  (['O','V','i','M'], ['南','靖','县']),
  (['P','1','i','W'], ['华','安','县']),
  (['P','4','j','B'], ['安','溪','县']),
  (['P','U','j','E'], ['德','化','县']),
  (['P','J','j','I'], ['永','春','县']),
  (['Q','A','j','B'], ['尤','溪','县']),
  (['P','g','i','p'], ['大','田','县']),
  (['Q','B','h','n'], ['清','流','县']),
  (['Q','G','h','d'], ['宁','化','县']),
  (['P','h','h','j'], ['连','城','县']),
  (['P','3','h','P'], ['上','杭','县']),
  (['P','6','h','6'], ['武','平','县']),
  (['P','o','h','L'], ['长','汀','县']),
  (['Q','M','i','C'], ['明','溪','县']),
  (['Q','s','i','A'], ['泰','宁','县']),
  (['Q','o','h','o'], ['建','宁','县']),
  (['R','t','j','W'], ['浦','城','县']),
  (['R','X','i','K'], ['光','泽','县']),
  (['Q','m','i','m'], ['顺','昌','县']),
  (['Q','i','i','S'], ['将','乐','县']),
  (['Q','O','i','l'], ['沙','县']),
  (['Q','Z','j','j'], ['古','田','县'])]

/-- part 2 of the places of lat_lon_data.cpp:32 -/
def r1_2 : List (List Char × List Char) := [
  (['Q','t','j','x'], ['屏','南','县']),
  (['Q','T','k','X'], ['罗','源','县']),
  (['Q','r','k','y'], ['霞','浦','县']),
  (['R','7','k','K'], ['周','宁','县']),
  (['R','S','k','U'], ['寿','宁','县']),
  (['R','M','j','p'], ['政','和','县']),
  (['R','W','j','l'], ['松','溪','县']),
  (['R','E','k','s'], ['柘','荣','县']),
  (['Q','C','k','W'], ['连','江','县']),
  (['Q','9','k','8'], ['闽','侯','县']),
  (['Q','D','j','p'], ['闽','清','县']),
  (['P','q','j','u'], ['永','泰','县']),
  (['P','M','j','f'], ['仙','游','县']),
  (['P','2','j','m'], ['惠','安','县']),
  (['P','V','k','l'], ['平','潭','县'])]

/-- lat_lon_data.cpp:32 -/
def row1 : Row := ⟨['福','建','省'], r1_0 ++ (r1_1 ++ (r1_2))⟩

/-- part 0 of the places of lat_lon_data.cpp:33 -/
def r2_0 : List (List Char × List Char) := [
  (['V','o','i','F'], ['合','肥','市']),
  (['U','W','i','3'], ['安','庆','市']),
  (['U','e','i','T'], ['池','州','市']),
  (['V','k','h','U'], ['六','安','市']),
  (['W','s','g','n'], ['阜','阳','市']),
  (['X','p','g','l'], ['亳','州','市']),
  (['X','c','h','x'], ['宿','州','市']),
  (['X','v','h','m'], ['淮','北','市']),
  (['W','c','h','y'], ['淮','南','市']),
  (['W','t','i','N'], ['蚌','埠','市']),
  (['W','I','j','J'], ['滁','州','市']),
  (['V','g','j','U'], ['马','鞍','山','市']),
  (['V','a','i','q'], ['巢','湖','市']),
  (['V','K','j','N'], ['芜','湖','市']),
  (['U','u','i','n'], ['铜','陵','市']),
  (['U','v','j','j'], ['宣','城','市']),
  (['T','h','j','K'], ['黄','山','市']),
  (['X','c','h','w'], ['埇','桥','区']),
  (['X','s','h','m'], ['烈','山','区']),
  (['X','v','h','m'], ['相','山','区']),
  (['X','y','h','n'], ['杜','集','区']),
  (['W','t','g','p'], ['颍','东','区']),
  (['W','r','g','m'], ['颍','州','区']),
  (['W','u','g','m'], ['颍','泉','区']),
  (['X','r','g','k'], ['谯','城','区']),
  (['W','u','i','K'], ['禹','会','区']),
  (['W','v','i','N'], ['龙','子','湖','区']),
  (['W','v','i','L'], ['蚌','山','区']),
  (['W','w','i','L'], ['淮','上','区']),
  (['W','c','i','3'], ['大','通','区']),
  (['W','e','i','0'], ['田','家','庵','区']),
  (['W','a','h','p'], ['谢','家','集','区']),
  (['W','c','h','o'], ['八','公','山','区']),
  (['W','l','h','n'], ['潘','集','区']),
  (['W','J','j','I'], ['南','谯','区']),
  (['W','I','j','I'], ['琅','琊','区']),
  (['V','a','i','p'], ['居','巢','区']),
  (['V','r','i','F'], ['庐','阳','区']),
  (['V','q','i','I'], ['瑶','海','区']),
  (['V','p','i','G'], ['蜀','山','区'])]

/-- part 1 of the places of lat_lon_data.cpp:33 -/
def r2_1 : List (List Char × List Char) := [
  (['V','m','i','I'], ['包','河','区']),
  (['V','k','h','T'], ['裕','安','区']),
  (['V','k','h','U'], ['金','安','区']),
  (['U','9','h','7'], ['宿','松','县']),
  (['U','a','i','0'], ['宜','秀','区']),
  (['U','U','i','3'], ['迎','江','区']),
  (['U','V','i','2'], ['大','观','区']),
  (['U','d','i','T'], ['贵','池','区']),
  (['U','t','i','l'], ['郊','区']),
  (['U','v','i','p'], ['狮','子','山','区']),
  (['U','u','i','n'], ['铜','官','山','区']),
  (['V','f','j','T'], ['雨','山','区']),
  (['V','h','j','U'], ['花','山','区']),
  (['V','i','j','T'], ['金','家','庄','区']),
  (['V','J','j','M'], ['戈','江','区']),
  (['V','L','j','M'], ['镜','湖','区']),
  (['V','M','j','N'], ['鸠','江','区']),
  (['V','E','j','E'], ['三','山','区']),
  (['U','v','j','j'], ['宣','州','区']),
  (['U','I','j','8'], ['黄','山','区']),
  (['T','n','j','K'], ['徽','州','区']),
  (['T','h','j','K'], ['屯','溪','区']),
  (['V','3','h','v'], ['桐','城','市']),
  (['W','l','i','x'], ['明','光','市']),
  (['W','g','j','y'], ['天','长','市']),
  (['U','c','j','x'], ['宁','国','市']),
  (['U','Q','h','G'], ['太','湖','县']),
  (['U','6','i','1'], ['东','至','县']),
  (['U','D','i','T'], ['石','台','县']),
  (['U','g','i','C'], ['枞','阳','县']),
  (['U','h','h','o'], ['怀','宁','县']),
  (['U','8','h','f'], ['望','江','县']),
  (['U','c','h','Y'], ['潜','山','县']),
  (['U','p','h','L'], ['岳','西','县']),
  (['V','O','h','K'], ['霍','山','县']),
  (['V','S','h','u'], ['舒','城','县']),
  (['V','F','i','H'], ['庐','江','县']),
  (['V','h','i','A'], ['肥','西','县']),
  (['V','r','i','S'], ['肥','东','县']),
  (['V','h','g','t'], ['金','寨','县'])]

/-- part 2 of the places of lat_lon_data.cpp:33 -/
def r2_2 : List (List Char × List Char) := [
  (['W','K','h','G'], ['霍','邱','县']),
  (['W','c','h','G'], ['颍','上','县']),
  (['W','c','g','Z'], ['阜','南','县']),
  (['X','A','g','b'], ['太','和','县']),
  (['X','9','h','C'], ['利','辛','县']),
  (['X','V','h','D'], ['涡','阳','县']),
  (['X','4','g','F'], ['临','泉','县']),
  (['X','t','h','k'], ['濉','溪','县']),
  (['Y','B','h','u'], ['萧','县']),
  (['Y','P','h','L'], ['砀','山','县']),
  (['X','J','i','J'], ['固','镇','县']),
  (['X','X','i','X'], ['灵','璧','县']),
  (['W','w','i','B'], ['怀','远','县']),
  (['X','G','h','Y'], ['蒙','城','县']),
  (['W','g','h','h'], ['凤','台','县']),
  (['W','Z','h','l'], ['寿','县']),
  (['W','q','i','Y'], ['凤','阳','县']),
  (['W','T','i','A'], ['长','丰','县']),
  (['W','W','i','e'], ['定','远','县']),
  (['W','R','j','Q'], ['来','安','县']),
  (['X','9','i','r'], ['五','河','县']),
  (['X','T','i','r'], ['泗','县']),
  (['U','s','k','P'], ['广','德','县']),
  (['V','8','k','A'], ['郎','溪','县']),
  (['V','X','j','T'], ['当','涂','县']),
  (['V','h','j','M'], ['和','县']),
  (['W','6','j','G'], ['全','椒','县']),
  (['V','h','j','6'], ['含','山','县']),
  (['V','I','i','t'], ['无','为','县']),
  (['U','v','i','l'], ['铜','陵','县']),
  (['V','5','j','C'], ['繁','昌','县']),
  (['U','t','j','K'], ['南','陵','县']),
  (['V','9','j','Y'], ['芜','湖','县']),
  (['U','H','j','W'], ['旌','德','县']),
  (['U','g','j','O'], ['泾','县']),
  (['U','d','i','p'], ['青','阳','县']),
  (['T','l','j','B'], ['休','宁','县']),
  (['T','q','i','h'], ['祁','门','县']),
  (['T','u','i','u'], ['黟','县']),
  (['T','q','j','Q'], ['歙','县'])]

/-- part 3 of the places of lat_lon_data.cpp:33 -/
def r2_3 : List (List Char × List Char) := [
  (['U','4','j','a'], ['绩','溪','县'])]

/-- lat_lon_data.cpp:33 -/
def row2 : Row := ⟨['安','徽','省'], r2_0 ++ (r2_1 ++ (r2_2 ++ (r2_3)))⟩

/-- part 0 of the places of lat_lon_data.cpp:34 -/
def r3_0 : List (List Char × List Char) := [
  (['a','4','U','n'], ['兰','州','市']),
  (['Y','x','T','t'], ['甘','南','藏','族','自','治','州']),
  (['Z','a','U','D'], ['临','夏','回','族','自','治','州']),
  (['b','u','T','c'], ['武','威','市']),
  (['d','m','P','G'], ['嘉','峪','关','市']),
  (['d','j','P','V'], ['酒','泉','市']),
  (['c','u','R','R'], ['张','掖','市']),
  (['c','U','T','B'], ['金','昌','市']),
  (['Z','i','Y','c'], ['庆','阳','市']),
  (['Z','X','X','e'], ['平','凉','市']),
  (['a','X','V','B'], ['白','银','市']),
  (['Z','Z','V','b'], ['定','西','市']),
  (['Y','Z','W','h'], ['天','水','市']),
  (['X','O','V','t'], ['陇','南','市']),
  (['d','j','P','V'], ['肃','州','区']),
  (['c','u','R','R'], ['甘','州','区']),
  (['c','U','T','B'], ['金','川','区']),
  (['a','3','U','o'], ['城','关','区']),
  (['a','6','U','b'], ['西','固','区']),
  (['a','K','T','q'], ['红','古','区']),
  (['b','u','T','c'], ['凉','州','区']),
  (['a','X','V','B'], ['白','银','区']),
  (['a','i','V','o'], ['平','川','区']),
  (['Z','X','X','e'], ['崆','峒','区']),
  (['Z','i','Y','c'], ['西','峰','区']),
  (['Z','Z','V','b'], ['安','定','区']),
  (['Y','Y','W','r'], ['麦','积','区']),
  (['X','O','V','t'], ['武','都','区']),
  (['Y','x','T','t'], ['合','作','市']),
  (['Z','a','U','D'], ['临','夏','市']),
  (['e','H','O','3'], ['玉','门','市']),
  (['e','8','L','e'], ['敦','煌','市']),
  (['Y','Z','W','h'], ['秦','州','区']),
  (['X','y','T','4'], ['玛','曲','县']),
  (['Y','Z','T','T'], ['碌','曲','县']),
  (['Y','3','U','D'], ['迭','部','县']),
  (['Y','Z','U','U'], ['卓','尼','县']),
  (['Y','g','U','L'], ['临','潭','县']),
  (['Z','T','U','Z'], ['广','河','县']),
  (['Z','U','T','y'], ['临','夏','县'])]

/-- part 1 of the places of lat_lon_data.cpp:34 -/
def r3_1 : List (List Char × List Char) := [
  (['Z','Q','U','L'], ['和','政','县']),
  (['Z','C','T','V'], ['夏','河','县']),
  (['Z','h','T','r'], ['积','石','山','保','安','族','东','乡','族','撒','拉','族','自','治','县']),
  (['Z','e','U','O'], ['东','乡','族','自','治','县']),
  (['Z','u','U','J'], ['永','靖','县']),
  (['a','i','U','G'], ['永','登','县']),
  (['b','S','T','r'], ['古','浪','县']),
  (['a','x','U','8'], ['天','祝','藏','族','自','治','县']),
  (['d','x','P','s'], ['金','塔','县']),
  (['d','8','R','A'], ['临','泽','县']),
  (['d','N','Q','n'], ['高','台','县']),
  (['c','o','Q','b'], ['肃','南','裕','固','族','自','治','县']),
  (['c','Q','R','n'], ['民','乐','县']),
  (['c','l','S','5'], ['山','丹','县']),
  (['c','F','S','w'], ['永','昌','县']),
  (['c','b','U','5'], ['民','勤','县']),
  (['e','W','M','o'], ['瓜','州','县']),
  (['d','c','L','K'], ['阿','克','塞','哈','萨','克','族','自','治','县']),
  (['d','V','L','r'], ['肃','北','蒙','古','族','自','治','县']),
  (['Z','U','Z','M'], ['正','宁','县']),
  (['Z','U','Y','t'], ['宁','县']),
  (['Z','n','Z','1'], ['合','水','县']),
  (['Z','y','Y','r'], ['庆','城','县']),
  (['a','S','Y','x'], ['华','池','县']),
  (['a','Z','Y','I'], ['环','县']),
  (['Z','f','Y','C'], ['镇','原','县']),
  (['b','9','V','4'], ['景','泰','县']),
  (['a','Y','V','f'], ['靖','远','县']),
  (['a','K','U','v'], ['皋','兰','县']),
  (['Z','p','V','7'], ['榆','中','县']),
  (['Z','g','W','3'], ['会','宁','县']),
  (['Z','V','W','h'], ['静','宁','县']),
  (['Z','C','X','3'], ['庄','浪','县']),
  (['Y','y','X','D'], ['张','家','川','回','族','自','治','县']),
  (['Y','j','X','8'], ['清','水','县']),
  (['Y','1','W','I'], ['西','和','县']),
  (['Y','B','W','A'], ['礼','县']),
  (['Y','i','W','K'], ['甘','谷','县']),
  (['Y','h','V','r'], ['武','山','县']),
  (['Z','C','W','F'], ['通','渭','县'])]

/-- part 2 of the places of lat_lon_data.cpp:34 -/
def r3_2 : List (List Char × List Char) := [
  (['Y','q','W','e'], ['秦','安','县']),
  (['Z','0','V','c'], ['陇','西','县']),
  (['Y','p','V','S'], ['漳','县']),
  (['Z','N','U','q'], ['临','洮','县']),
  (['Z','M','U','h'], ['康','乐','县']),
  (['Z','8','V','D'], ['渭','源','县']),
  (['Y','Q','V','2'], ['岷','县']),
  (['Y','3','V','N'], ['宕','昌','县']),
  (['X','l','V','M'], ['舟','曲','县']),
  (['W','v','V','f'], ['文','县']),
  (['X','t','X','I'], ['两','当','县']),
  (['X','K','W','a'], ['康','县']),
  (['Z','I','Y','2'], ['崇','信','县']),
  (['Z','4','Y','b'], ['灵','台','县']),
  (['X','k','X','5'], ['徽','县']),
  (['X','i','W','h'], ['成','县']),
  (['Z','K','Y','M'], ['泾','川','县']),
  (['Z','D','X','d'], ['华','亭','县'])]

/-- lat_lon_data.cpp:34 -/
def row3 : Row := ⟨['甘','肃','省'], r3_0 ++ (r3_1 ++ (r3_2))⟩

/-- part 0 of the places of lat_lon_data.cpp:35 -/
def r4_0 : List (List Char × List Char) := [
  (['N','8','e','G'], ['广','州','市']),
  (['L','G','b','L'], ['湛','江','市']),
  (['L','e','b','t'], ['茂','名','市']),
  (['L','q','c','x'], ['阳','江','市']),
  (['M','X','f','3'], ['深','圳','市']),
  (['M','V','e','N'], ['中','山','市']),
  (['M','G','e','Y'], ['珠','海','市']),
  (['M','Z','e','5'], ['江','门','市']),
  (['N','3','d','S'], ['肇','庆','市']),
  (['N','1','e','7'], ['佛','山','市']),
  (['N','g','e','2'], ['清','远','市']),
  (['N','3','e','j'], ['东','莞','市']),
  (['N','7','f','P'], ['惠','州','市']),
  (['N','i','f','g'], ['河','源','市']),
  (['O','n','e','a'], ['韶','关','市']),
  (['M','t','d','2'], ['云','浮','市']),
  (['N','e','h','b'], ['潮','州','市']),
  (['O','H','h','7'], ['梅','州','市']),
  (['N','X','h','M'], ['揭','阳','市']),
  (['N','L','h','f'], ['汕','头','市']),
  (['M','l','g','M'], ['汕','尾','市']),
  (['N','3','d','T'], ['端','州','区']),
  (['N','A','d','Y'], ['鼎','湖','区']),
  (['N','5','f','O'], ['惠','城','区']),
  (['M','m','f','S'], ['惠','阳','区']),
  (['M','V','e','t'], ['南','山','区']),
  (['M','Y','e','s'], ['宝','安','区']),
  (['M','W','f','3'], ['福','田','区']),
  (['M','X','f','7'], ['罗','湖','区']),
  (['M','X','f','D'], ['盐','田','区']),
  (['M','i','f','G'], ['龙','岗','区']),
  (['N','I','e','o'], ['增','城','市']),
  (['N','X','e','Z'], ['从','化','市']),
  (['M','D','e','H'], ['斗','门','区']),
  (['M','4','e','O'], ['金','湾','区']),
  (['M','G','e','X'], ['香','洲','区']),
  (['N','2','e','9'], ['南','海','区']),
  (['M','m','e','I'], ['顺','德','区']),
  (['N','A','d','q'], ['三','水','区']),
  (['M','s','d','r'], ['高','明','区'])]

/-- part 1 of the places of lat_lon_data.cpp:35 -/
def r4_1 : List (List Char × List Char) := [
  (['M','S','e','2'], ['新','会','区']),
  (['L','q','c','v'], ['江','城','区']),
  (['M','u','d','2'], ['云','城','区']),
  (['L','S','c','1'], ['茂','港','区']),
  (['L','c','b','t'], ['茂','南','区']),
  (['L','G','b','J'], ['麻','章','区']),
  (['L','E','b','S'], ['坡','头','区']),
  (['L','C','b','O'], ['霞','山','区']),
  (['L','G','b','M'], ['赤','坎','区']),
  (['L','Q','b','k'], ['吴','川','市']),
  (['K','t','b','5'], ['雷','州','市']),
  (['L','b','b','G'], ['廉','江','市']),
  (['M','L','b','v'], ['信','宜','市']),
  (['L','t','b','p'], ['高','州','市']),
  (['L','e','b','c'], ['化','州','市']),
  (['M','k','c','Y'], ['罗','定','市']),
  (['M','B','d','I'], ['恩','平','市']),
  (['M','B','c','l'], ['阳','春','市']),
  (['M','N','d','e'], ['开','平','市']),
  (['M','F','d','l'], ['台','山','市']),
  (['M','k','d','w'], ['鹤','山','市']),
  (['N','2','d','R'], ['高','要','市']),
  (['N','K','d','f'], ['四','会','市']),
  (['O','B','e','O'], ['英','德','市']),
  (['P','7','f','I'], ['南','雄','市']),
  (['P','8','e','L'], ['乐','昌','市']),
  (['O','l','d','N'], ['连','州','市']),
  (['O','9','g','i'], ['兴','宁','市']),
  (['M','v','g','d'], ['陆','丰','市']),
  (['N','I','h','B'], ['普','宁','市']),
  (['N','g','e','1'], ['清','城','区']),
  (['O','f','e','a'], ['曲','江','区']),
  (['O','m','e','a'], ['浈','江','区']),
  (['O','m','e','Y'], ['武','江','区']),
  (['N','i','f','g'], ['源','城','区']),
  (['O','J','h','7'], ['梅','江','区']),
  (['N','f','h','c'], ['湘','桥','区']),
  (['N','e','h','y'], ['饶','平','县']),
  (['N','T','h','k'], ['澄','海','区']),
  (['N','M','h','g'], ['金','平','区'])]

/-- part 2 of the places of lat_lon_data.cpp:35 -/
def r4_2 : List (List Char × List Char) := [
  (['N','M','h','h'], ['龙','湖','区']),
  (['N','H','h','i'], ['达','濠','区']),
  (['N','G','h','a'], ['潮','阳','区']),
  (['N','F','h','Q'], ['潮','南','区']),
  (['K','K','b','A'], ['徐','闻','县']),
  (['L','N','b','F'], ['遂','溪','县']),
  (['L','U','c','0'], ['电','白','县']),
  (['L','j','c','b'], ['阳','西','县']),
  (['M','g','d','E'], ['新','兴','县']),
  (['L','r','d','1'], ['阳','东','县']),
  (['M','m','e','U'], ['南','沙','区']),
  (['N','c','d','Q'], ['广','宁','县']),
  (['N','i','d','x'], ['清','新','县']),
  (['N','r','e','W'], ['佛','冈','县']),
  (['N','O','e','D'], ['花','都','区']),
  (['N','6','e','R'], ['黄','埔','区']),
  (['N','7','e','L'], ['天','河','区']),
  (['N','6','e','F'], ['海','珠','区']),
  (['N','8','e','E'], ['荔','湾','区']),
  (['N','8','e','G'], ['越','秀','区']),
  (['N','A','e','G'], ['白','云','区']),
  (['M','v','e','L'], ['番','禺','区']),
  (['N','B','e','U'], ['萝','岗','区']),
  (['N','B','f','H'], ['博','罗','县']),
  (['M','x','f','h'], ['惠','东','县']),
  (['N','c','g','B'], ['紫','金','县']),
  (['N','n','f','k'], ['东','源','县']),
  (['O','4','f','C'], ['新','丰','县']),
  (['N','i','f','F'], ['龙','门','县']),
  (['O','L','f','8'], ['翁','源','县']),
  (['O','v','f','4'], ['始','兴','县']),
  (['O','M','f','T'], ['连','平','县']),
  (['O','R','f','u'], ['和','平','县']),
  (['P','5','e','j'], ['仁','化','县']),
  (['O','l','e','G'], ['乳','源','瑶','族','自','治','县']),
  (['O','T','d','c'], ['阳','山','县']),
  (['O','h','d','H'], ['连','南','瑶','族','自','治','县']),
  (['O','Y','d','5'], ['连','山','壮','族','瑶','族','自','治','县']),
  (['N','t','d','B'], ['怀','集','县']),
  (['N','5','d','0'], ['云','安','县'])]

/-- part 3 of the places of lat_lon_data.cpp:35 -/
def r4_3 : List (List Char × List Char) := [
  (['N','9','c','k'], ['德','庆','县']),
  (['N','Q','c','U'], ['封','开','县']),
  (['N','E','c','W'], ['郁','南','县']),
  (['O','L','h','g'], ['大','埔','县']),
  (['O','Y','g','r'], ['平','远','县']),
  (['O','e','h','A'], ['蕉','岭','县']),
  (['N','k','h','B'], ['丰','顺','县']),
  (['O','H','h','3'], ['梅','县']),
  (['O','6','g','F'], ['龙','川','县']),
  (['N','u','g','k'], ['五','华','县']),
  (['N','I','g','d'], ['陆','河','县']),
  (['N','Q','g','o'], ['揭','西','县']),
  (['M','w','g','K'], ['海','丰','县']),
  (['N','2','h','H'], ['惠','来','县']),
  (['N','Y','h','P'], ['揭','东','县']),
  (['N','P','i','1'], ['南','澳','县']),
  (['N','R','h','f'], ['潮','安','县'])]

/-- lat_lon_data.cpp:35 -/
def row4 : Row := ⟨['广','东','省'], r4_0 ++ (r4_1 ++ (r4_2 ++ (r4_3)))⟩

/-- part 0 of the places of lat_lon_data.cpp:36 -/
def r5_0 : List (List Char × List Char) := [
  (['M','n','Z','M'], ['南','宁','市']),
  (['L','g','Z','L'], ['防','城','港','市']),
  (['L','T','a','7'], ['北','海','市']),
  (['L','v','Z','b'], ['钦','州','市']),
  (['N','6','a','a'], ['贵','港','市']),
  (['M','O','Y','M'], ['崇','左','市']),
  (['O','g','Z','4'], ['河','池','市']),
  (['N','i','a','E'], ['来','宾','市']),
  (['O','K','a','P'], ['柳','州','市']),
  (['N','s','X','b'], ['百','色','市']),
  (['P','H','b','H'], ['桂','林','市']),
  (['N','T','c','G'], ['梧','州','市']),
  (['O','P','c','X'], ['贺','州','市']),
  (['M','c','b','A'], ['玉','林','市']),
  (['O','g','Z','3'], ['金','城','江','区']),
  (['M','j','Z','T'], ['邕','宁','区']),
  (['M','k','Z','J'], ['良','庆','区']),
  (['M','q','Z','N'], ['兴','宁','区']),
  (['M','l','Z','H'], ['江','南','区']),
  (['M','o','Z','I'], ['西','乡','塘','区']),
  (['O','L','a','N'], ['柳','南','区']),
  (['N','8','a','P'], ['覃','塘','区']),
  (['N','5','a','a'], ['港','南','区']),
  (['L','W','a','Q'], ['铁','山','港','区']),
  (['L','x','Z','c'], ['钦','北','区']),
  (['L','k','Z','L'], ['防','城','区']),
  (['L','d','Z','M'], ['港','口','区']),
  (['M','7','X','j'], ['凭','祥','市']),
  (['L','W','Y','w'], ['东','兴','市']),
  (['N','n','Z','q'], ['合','山','市']),
  (['O','U','Z','e'], ['宜','州','市']),
  (['N','O','b','5'], ['桂','平','市']),
  (['M','t','b','x'], ['岑','溪','市']),
  (['M','h','b','L'], ['北','流','市']),
  (['N','8','X','P'], ['靖','西','县']),
  (['N','5','Y','8'], ['天','等','县']),
  (['M','L','X','p'], ['龙','州','县']),
  (['M','8','Y','4'], ['宁','明','县']),
  (['L','e','a','C'], ['合','浦','县']),
  (['M','H','a','w'], ['博','白','县'])]

/-- part 1 of the places of lat_lon_data.cpp:36 -/
def r5_1 : List (List Char × List Char) := [
  (['M','G','a','X'], ['浦','北','县']),
  (['M','Q','a','I'], ['灵','山','县']),
  (['M','f','a','G'], ['横','县']),
  (['M','j','a','q'], ['兴','业','县']),
  (['N','D','Z','m'], ['宾','阳','县']),
  (['N','A','Z','G'], ['武','鸣','县']),
  (['M','c','Y','s'], ['扶','绥','县']),
  (['M','9','Y','x'], ['上','思','县']),
  (['M','o','Y','C'], ['大','新','县']),
  (['N','B','Y','f'], ['隆','安','县']),
  (['N','J','Y','Z'], ['平','果','县']),
  (['O','9','Y','F'], ['巴','马','瑶','族','自','治','县']),
  (['O','V','Y','M'], ['东','兰','县']),
  (['N','u','Z','6'], ['都','安','瑶','族','自','治','县']),
  (['N','i','Y','x'], ['大','化','瑶','族','自','治','县']),
  (['N','h','Z','A'], ['马','山','县']),
  (['N','Q','Z','a'], ['上','林','县']),
  (['N','a','a','e'], ['武','宣','县']),
  (['N','w','a','f'], ['象','州','县']),
  (['O','G','a','K'], ['柳','江','县']),
  (['O','T','a','i'], ['鹿','寨','县']),
  (['O','4','Z','e'], ['忻','城','县']),
  (['O','l','Z','s'], ['罗','城','仫','佬','族','自','治','县']),
  (['P','4','a','F'], ['融','水','苗','族','自','治','县']),
  (['P','E','a','O'], ['融','安','县']),
  (['O','d','a','E'], ['柳','城','县']),
  (['O','x','a','x'], ['永','福','县']),
  (['P','l','a','a'], ['三','江','侗','族','自','治','县']),
  (['P','j','Z','s'], ['从','江','县']),
  (['O','o','Z','F'], ['环','江','毛','南','族','自','治','县']),
  (['O','x','Y','W'], ['南','丹','县']),
  (['O','l','X','X'], ['乐','业','县']),
  (['O','y','Y','A'], ['天','峨','县']),
  (['O','X','Y','3'], ['凤','山','县']),
  (['O','L','X','Y'], ['凌','云','县']),
  (['N','i','X','t'], ['田','阳','县']),
  (['N','a','Y','7'], ['田','东','县']),
  (['N','K','X','b'], ['德','保','县']),
  (['N','P','W','o'], ['那','坡','县']),
  (['O','I','X','E'], ['田','林','县'])]

/-- part 2 of the places of lat_lon_data.cpp:36 -/
def r5_2 : List (List Char × List Char) := [
  (['O','U','W','6'], ['西','林','县']),
  (['O','k','W','K'], ['隆','林','各','族','自','治','县']),
  (['P','u','c','4'], ['全','州','县']),
  (['P','T','c','9'], ['灌','阳','县']),
  (['P','b','b','e'], ['兴','安','县']),
  (['Q','2','b','c'], ['资','源','县']),
  (['P','m','b','0'], ['龙','胜','各','族','自','治','县']),
  (['P','P','b','J'], ['灵','川','县']),
  (['P','E','b','C'], ['临','桂','县']),
  (['O','l','b','T'], ['阳','朔','县']),
  (['O','c','b','c'], ['平','乐','县']),
  (['O','o','b','o'], ['恭','城','瑶','族','自','治','县']),
  (['O','o','c','G'], ['富','川','瑶','族','自','治','县']),
  (['O','W','c','I'], ['钟','山','县']),
  (['O','A','b','m'], ['昭','平','县']),
  (['O','U','b','N'], ['荔','浦','县']),
  (['O','8','b','B'], ['金','秀','瑶','族','自','治','县']),
  (['O','C','b','V'], ['蒙','山','县']),
  (['N','X','b','N'], ['平','南','县']),
  (['N','N','b','t'], ['藤','县']),
  (['N','P','c','E'], ['苍','梧','县']),
  (['M','q','b','X'], ['容','县']),
  (['M','K','b','G'], ['陆','川','县'])]

/-- lat_lon_data.cpp:36 -/
def row5 : Row := ⟨['广','西','壮','族','自','治','区'], r5_0 ++ (r5_1 ++ (r5_2))⟩

/-- part 0 of the places of lat_lon_data.cpp:37 -/
def r6_0 : List (List Char × List Char) := [
  (['Q','d','X','c'], ['贵','阳','市']),
  (['P','5','V','s'], ['黔','西','南','布','依','族','苗','族','自','治','州']),
  (['Q','a','V','o'], ['六','盘','水','市']),
  (['R','I','W','H'], ['毕','节','地','区']),
  (['Q','F','W','v'], ['安','顺','市']),
  (['Q','Z','Y','w'], ['黔','东','南','苗','族','侗','族','自','治','州']),
  (['Q','G','Y','V'], ['黔','南','布','依','族','苗','族','自','治','州']),
  (['R','i','X','t'], ['遵','义','市']),
  (['R','h','a','B'], ['铜','仁','地','区']),
  (['Q','f','X','d'], ['白','云','区']),
  (['R','E','Z','t'], ['玉','屏','侗','族','自','治','县']),
  (['P','j','Z','s'], ['从','江','县']),
  (['Q','F','W','t'], ['西','秀','区']),
  (['Q','W','X','g'], ['小','河','区']),
  (['Q','Y','X','h'], ['南','明','区']),
  (['Q','b','X','h'], ['云','岩','区']),
  (['Q','c','X','j'], ['乌','当','区']),
  (['S','Z','W','g'], ['赤','水','市']),
  (['R','d','X','t'], ['红','花','岗','区']),
  (['R','i','X','t'], ['汇','川','区']),
  (['Q','a','V','o'], ['钟','山','区']),
  (['P','5','V','s'], ['兴','义','市']),
  (['R','I','W','H'], ['毕','节','市']),
  (['Q','Z','Y','w'], ['凯','里','市']),
  (['Q','g','Y','U'], ['福','泉','市']),
  (['Q','G','Y','V'], ['都','匀','市']),
  (['Q','X','X','S'], ['清','镇','市']),
  (['R','h','a','B'], ['铜','仁','市']),
  (['R','n','X','P'], ['仁','怀','市']),
  (['P','h','V','S'], ['盘','县']),
  (['P','l','V','v'], ['普','安','县']),
  (['Q','q','V','H'], ['威','宁','彝','族','回','族','苗','族','自','治','县']),
  (['R','8','V','h'], ['赫','章','县']),
  (['Q','D','W','T'], ['六','枝','特','区']),
  (['Q','l','W','N'], ['纳','雍','县']),
  (['Q','X','V','v'], ['水','城','县']),
  (['R','9','W','a'], ['大','方','县']),
  (['R','2','X','2'], ['黔','西','县']),
  (['R','S','X','D'], ['金','沙','县']),
  (['Q','e','W','k'], ['织','金','县'])]

/-- part 1 of the places of lat_lon_data.cpp:37 -/
def r6_1 : List (List Char × List Char) := [
  (['Q','J','W','j'], ['普','定','县']),
  (['Q','4','W','k'], ['镇','宁','布','依','族','苗','族','自','治','县']),
  (['Q','P','X','F'], ['平','坝','县']),
  (['P','j','X','5'], ['紫','云','苗','族','布','依','族','自','治','县']),
  (['P','v','W','b'], ['关','岭','布','依','族','苗','族','自','治','县']),
  (['P','o','W','D'], ['晴','隆','县']),
  (['P','N','W','d'], ['贞','丰','县']),
  (['P','Q','W','B'], ['兴','仁','县']),
  (['P','7','W','S'], ['安','龙','县']),
  (['O','x','W','n'], ['册','亨','县']),
  (['P','A','X','6'], ['望','谟','县']),
  (['P','Q','X','j'], ['罗','甸','县']),
  (['Q','2','X','R'], ['长','顺','县']),
  (['P','o','Y','J'], ['平','塘','县']),
  (['P','o','Y','W'], ['独','山','县']),
  (['P','u','Z','V'], ['榕','江','县']),
  (['P','P','Y','r'], ['荔','波','县']),
  (['P','x','Y','q'], ['三','都','水','族','自','治','县']),
  (['Q','N','Z','4'], ['雷','山','县']),
  (['Q','e','Z','J'], ['台','江','县']),
  (['Q','i','Z','R'], ['剑','河','县']),
  (['Q','E','a','8'], ['黎','平','县']),
  (['Q','w','Z','f'], ['三','穗','县']),
  (['Q','f','a','C'], ['锦','屏','县']),
  (['Q','t','a','C'], ['天','柱','县']),
  (['R','B','Z','n'], ['岑','巩','县']),
  (['R','3','Z','P'], ['镇','远','县']),
  (['R','2','Z','7'], ['施','秉','县']),
  (['Q','s','Y','s'], ['黄','平','县']),
  (['R','D','Y','r'], ['余','庆','县']),
  (['R','4','Y','S'], ['瓮','安','县']),
  (['Q','C','Y','m'], ['丹','寨','县']),
  (['Q','U','Y','Z'], ['麻','江','县']),
  (['Q','Z','Y','E'], ['贵','定','县']),
  (['Q','R','X','w'], ['龙','里','县']),
  (['Q','8','X','d'], ['惠','水','县']),
  (['Q','o','X','Z'], ['修','文','县']),
  (['R','6','X','i'], ['息','烽','县']),
  (['R','4','X','w'], ['开','阳','县']),
  (['R','W','X','o'], ['遵','义','县'])]

/-- part 2 of the places of lat_lon_data.cpp:37 -/
def r6_2 : List (List Char × List Char) := [
  (['S','8','X','n'], ['桐','梓','县']),
  (['S','X','Y','Q'], ['正','安','县']),
  (['S','r','Y','a'], ['道','真','仡','佬','族','苗','族','自','治','县']),
  (['R','w','Y','h'], ['凤','冈','县']),
  (['R','v','Y','B'], ['绥','阳','县']),
  (['R','k','Y','T'], ['湄','潭','县']),
  (['R','u','Z','F'], ['思','南','县']),
  (['R','y','Z','O'], ['印','江','土','家','族','苗','族','自','治','县']),
  (['R','V','Z','E'], ['石','阡','县']),
  (['R','g','Z','p'], ['江','口','县']),
  (['R','V','a','C'], ['万','山','特','区']),
  (['S','Y','Z','U'], ['沿','河','土','家','族','自','治','县']),
  (['S','A','a','C'], ['松','桃','苗','族','自','治','县']),
  (['S','G','Z','7'], ['德','江','县']),
  (['S','W','Y','r'], ['务','川','仡','佬','族','苗','族','自','治','县']),
  (['S','J','X','D'], ['习','水','县'])]

/-- lat_lon_data.cpp:37 -/
def row6 : Row := ⟨['贵','州','省'], r6_0 ++ (r6_1 ++ (r6_2))⟩

/-- part 0 of the places of lat_lon_data.cpp:38 -/
def r7_0 : List (List Char × List Char) := [
  (['K','2','b','J'], ['海','口','市']),
  (['I','F','a','U'], ['三','亚','市']),
  (['K','2','b','I'], ['龙','华','区']),
  (['K','1','b','H'], ['秀','英','区']),
  (['K','0','b','L'], ['琼','山','区']),
  (['K','2','b','M'], ['美','兰','区']),
  (['J','6','Z','c'], ['东','方','市']),
  (['I','l','a','V'], ['五','指','山','市']),
  (['J','F','b','S'], ['琼','海','市']),
  (['I','m','b','O'], ['万','宁','市']),
  (['J','X','b','m'], ['文','昌','市']),
  (['J','V','a','Y'], ['儋','州','市']),
  (['I','j','a','A'], ['乐','东','黎','族','自','治','县']),
  (['J','F','a','3'], ['昌','江','黎','族','自','治','县']),
  (['J','E','a','R'], ['白','沙','黎','族','自','治','县']),
  (['J','2','a','o'], ['琼','中','黎','族','苗','族','自','治','县']),
  (['I','c','a','g'], ['保','亭','黎','族','苗','族','自','治','县']),
  (['I','U','b','2'], ['陵','水','黎','族','自','治','县']),
  (['J','M','b','6'], ['屯','昌','县']),
  (['J','i','b','0'], ['澄','迈','县']),
  (['J','g','b','J'], ['定','安','县']),
  (['J','t','a','f'], ['临','高','县'])]

/-- lat_lon_data.cpp:38 -/
def row7 : Row := ⟨['海','南','省'], r7_0⟩

/-- part 0 of the places of lat_lon_data.cpp:39 -/
def r8_0 : List (List Char × List Char) := [
  (['c','3','f','V'], ['石','家','庄','市']),
  (['a','b','f','T'], ['邯','郸','市']),
  (['b','4','f','T'], ['邢','台','市']),
  (['c','q','g','S'], ['保','定','市']),
  (['b','i','g','f'], ['衡','水','市']),
  (['c','I','h','o'], ['沧','州','市']),
  (['d','V','h','g'], ['廊','坊','市']),
  (['d','c','j','C'], ['唐','山','市']),
  (['e','w','i','u'], ['承','德','市']),
  (['e','n','f','r'], ['张','家','口','市']),
  (['d','u','k','a'], ['秦','皇','岛','市']),
  (['d','x','i','4'], ['三','河','市']),
  (['d','i','j','P'], ['古','冶','区']),
  (['d','f','j','G'], ['开','平','区']),
  (['d','o','j','A'], ['丰','润','区']),
  (['d','c','j','D'], ['路','北','区']),
  (['d','c','j','A'], ['路','南','区']),
  (['d','Y','j','6'], ['丰','南','区']),
  (['a','P','f','C'], ['峰','峰','矿','区']),
  (['c','5','f','3'], ['井','陉','矿','区']),
  (['c','2','f','S'], ['桥','西','区']),
  (['c','1','f','V'], ['裕','华','区']),
  (['c','3','f','V'], ['长','安','区']),
  (['c','3','f','U'], ['桥','东','区']),
  (['c','3','f','S'], ['新','华','区']),
  (['b','i','g','f'], ['桃','城','区']),
  (['d','W','h','h'], ['广','阳','区']),
  (['d','V','h','f'], ['安','次','区']),
  (['c','q','g','R'], ['新','市','区']),
  (['c','p','g','U'], ['南','市','区']),
  (['c','q','g','T'], ['北','市','区']),
  (['e','T','g','G'], ['下','花','园','区']),
  (['e','a','g','3'], ['宣','化','区']),
  (['e','l','f','s'], ['桥','东','区']),
  (['e','o','f','q'], ['桥','西','区']),
  (['e','w','i','u'], ['双','桥','区']),
  (['e','v','i','l'], ['双','滦','区']),
  (['e','X','i','d'], ['鹰','手','营','子','矿','区']),
  (['e','0','k','k'], ['山','海','关','区']),
  (['d','u','k','a'], ['海','港','区'])]

/-- part 1 of the places of lat_lon_data.cpp:39 -/
def r8_1 : List (List Char × List Char) := [
  (['d','o','k','T'], ['北','戴','河','区']),
  (['a','g','f','C'], ['武','安','市']),
  (['a','p','f','U'], ['沙','河','市']),
  (['c','L','f','f'], ['新','乐','市']),
  (['c','2','f','o'], ['藁','城','市']),
  (['c','5','f','I'], ['鹿','泉','市']),
  (['b','Y','g','Y'], ['冀','州','市']),
  (['c','1','g','X'], ['深','州','市']),
  (['b','t','g','D'], ['辛','集','市']),
  (['c','2','g','2'], ['晋','州','市']),
  (['c','V','f','w'], ['定','州','市']),
  (['c','P','g','J'], ['安','国','市']),
  (['c','h','h','6'], ['任','丘','市']),
  (['c','Q','h','5'], ['河','间','市']),
  (['a','o','g','g'], ['临','清','市']),
  (['b','L','g','N'], ['南','宫','市']),
  (['c','M','i','L'], ['黄','骅','市']),
  (['c','4','h','Y'], ['泊','头','市']),
  (['d','6','h','O'], ['霸','州','市']),
  (['e','1','j','g'], ['迁','安','市']),
  (['e','B','i','v'], ['遵','化','市']),
  (['d','T','g','w'], ['涿','州','市']),
  (['d','K','g','p'], ['高','碑','店','市']),
  (['d','k','i','0'], ['香','河','县']),
  (['d','r','h','x'], ['大','厂','回','族','自','治','县']),
  (['a','c','f','T'], ['丛','台','区']),
  (['a','a','f','T'], ['邯','山','区']),
  (['a','c','f','R'], ['复','兴','区']),
  (['b','4','f','U'], ['桥','东','区']),
  (['b','3','f','S'], ['桥','西','区']),
  (['c','J','h','p'], ['运','河','区']),
  (['c','J','h','q'], ['新','华','区']),
  (['a','Y','e','e'], ['涉','县']),
  (['a','L','f','M'], ['磁','县']),
  (['a','L','f','b'], ['临','漳','县']),
  (['a','Q','f','f'], ['成','安','县']),
  (['a','X','f','m'], ['肥','乡','县']),
  (['a','t','f','q'], ['鸡','泽','县']),
  (['a','l','f','T'], ['永','年','县']),
  (['a','a','f','W'], ['邯','郸','县'])]

/-- part 2 of the places of lat_lon_data.cpp:39 -/
def r8_2 : List (List Char × List Char) := [
  (['b','8','f','f'], ['任','县']),
  (['a','y','f','f'], ['南','和','县']),
  (['b','I','f','V'], ['内','丘','县']),
  (['b','Q','f','U'], ['临','城','县']),
  (['b','L','f','k'], ['隆','尧','县']),
  (['b','5','f','U'], ['邢','台','县']),
  (['c','2','f','8'], ['井','陉','县']),
  (['c','p','f','B'], ['阜','平','县']),
  (['c','F','f','C'], ['平','山','县']),
  (['c','I','f','M'], ['灵','寿','县']),
  (['c','Q','f','X'], ['行','唐','县']),
  (['c','b','f','g'], ['曲','阳','县']),
  (['b','r','f','d'], ['栾','城','县']),
  (['c','9','f','Y'], ['正','定','县']),
  (['b','e','f','N'], ['赞','皇','县']),
  (['b','U','f','f'], ['柏','乡','县']),
  (['b','a','f','a'], ['高','邑','县']),
  (['b','j','f','k'], ['赵','县']),
  (['b','j','f','V'], ['元','氏','县']),
  (['b','b','f','t'], ['宁','晋','县']),
  (['b','W','g','F'], ['新','河','县']),
  (['c','B','f','w'], ['无','极','县']),
  (['c','B','g','C'], ['深','泽','县']),
  (['c','j','f','x'], ['唐','县']),
  (['c','h','g','9'], ['望','都','县']),
  (['c','o','g','8'], ['顺','平','县']),
  (['c','k','g','T'], ['清','苑','县']),
  (['c','f','g','l'], ['高','阳','县']),
  (['c','T','g','Y'], ['蠡','县']),
  (['c','R','g','S'], ['博','野','县']),
  (['c','E','g','V'], ['安','平','县']),
  (['c','E','g','i'], ['饶','阳','县']),
  (['c','Q','g','o'], ['肃','宁','县']),
  (['c','B','h','7'], ['献','县']),
  (['b','q','h','9'], ['阜','城','县']),
  (['c','2','g','x'], ['武','强','县']),
  (['b','n','g','r'], ['武','邑','县']),
  (['b','V','g','h'], ['枣','强','县']),
  (['b','g','h','G'], ['景','县']),
  (['b','L','g','w'], ['故','城','县'])]

/-- part 3 of the places of lat_lon_data.cpp:39 -/
def r8_3 : List (List Char × List Char) := [
  (['b','4','g','e'], ['清','河','县']),
  (['b','D','g','2'], ['巨','鹿','县']),
  (['b','4','g','9'], ['广','宗','县']),
  (['a','x','g','F'], ['威','县']),
  (['b','4','g','2'], ['平','乡','县']),
  (['a','l','f','v'], ['曲','周','县']),
  (['a','n','g','A'], ['邱','县']),
  (['a','p','g','U'], ['临','西','县']),
  (['a','W','g','I'], ['馆','陶','县']),
  (['a','T','f','u'], ['广','平','县']),
  (['a','M','f','u'], ['魏','县']),
  (['a','H','g','9'], ['大','名','县']),
  (['c','8','i','T'], ['海','兴','县']),
  (['c','4','i','6'], ['孟','村','回','族','自','治','县']),
  (['c','3','i','D'], ['盐','山','县']),
  (['b','b','h','N'], ['吴','桥','县']),
  (['c','2','h','g'], ['南','皮','县']),
  (['b','r','h','W'], ['东','光','县']),
  (['c','I','h','q'], ['沧','县']),
  (['c','Z','h','n'], ['青','县']),
  (['c','g','h','c'], ['大','城','县']),
  (['c','q','h','S'], ['文','安','县']),
  (['d','J','h','U'], ['永','清','县']),
  (['d','P','j','s'], ['乐','亭','县']),
  (['d','U','j','f'], ['滦','南','县']),
  (['d','G','j','R'], ['唐','海','县']),
  (['d','j','j','g'], ['滦','县']),
  (['d','r','j','q'], ['卢','龙','县']),
  (['e','9','j','J'], ['迁','西','县']),
  (['d','r','i','i'], ['玉','田','县']),
  (['e','k','j','A'], ['承','德','县']),
  (['e','a','j','T'], ['宽','城','满','族','自','治','县']),
  (['e','O','j','v'], ['青','龙','满','族','自','治','县']),
  (['f','0','j','f'], ['平','泉','县']),
  (['f','J','i','h'], ['隆','化','县']),
  (['e','Q','i','V'], ['兴','隆','县']),
  (['e','u','i','K'], ['滦','平','县']),
  (['f','C','h','d'], ['丰','宁','满','族','自','治','县']),
  (['f','e','g','g'], ['沽','源','县']),
  (['e','X','g','1'], ['宣','化','县'])]

/-- part 4 of the places of lat_lon_data.cpp:39 -/
def r8_4 : List (List Char × List Char) := [
  (['e','N','g','D'], ['涿','鹿','县']),
  (['e','O','g','V'], ['怀','来','县']),
  (['e','w','g','G'], ['崇','礼','县']),
  (['e','t','g','o'], ['赤','城','县']),
  (['d','Q','h','I'], ['固','安','县']),
  (['c','x','h','6'], ['雄','县']),
  (['c','t','g','u'], ['安','新','县']),
  (['d','3','g','q'], ['容','城','县']),
  (['d','O','g','h'], ['涞','水','县']),
  (['d','G','g','k'], ['定','兴','县']),
  (['d','L','g','U'], ['易','县']),
  (['d','1','g','d'], ['徐','水','县']),
  (['c','v','g','J'], ['满','城','县']),
  (['e','7','f','A'], ['阳','原','县']),
  (['d','p','f','Y'], ['蔚','县']),
  (['d','L','f','f'], ['涞','源','县']),
  (['e','j','f','h'], ['万','全','县']),
  (['e','e','f','P'], ['怀','安','县']),
  (['f','5','e','w'], ['尚','义','县']),
  (['f','9','f','g'], ['张','北','县']),
  (['f','p','f','b'], ['康','保','县']),
  (['f','u','i','j'], ['围','场','满','族','蒙','古','族','自','治','县']),
  (['d','r','k','E'], ['抚','宁','县']),
  (['d','g','k','A'], ['昌','黎','县'])]

/-- lat_lon_data.cpp:39 -/
def row8 : Row := ⟨['河','北','省'], r8_0 ++ (r8_1 ++ (r8_2 ++ (r8_3 ++ (r8_4))))⟩

/-- part 0 of the places of lat_lon_data.cpp:40 -/
def r9_0 : List (List Char × List Char) := [
  (['Y','j','e','b'], ['郑','州','市']),
  (['W','y','d','V'], ['南','阳','市']),
  (['W','8','f','4'], ['信','阳','市']),
  (['X','b','f','d'], ['周','口','市']),
  (['X','Z','f','1'], ['漯','河','市']),
  (['W','x','f','1'], ['驻','马','店','市']),
  (['X','k','e','B'], ['平','顶','山','市']),
  (['Y','2','e','p'], ['许','昌','市']),
  (['Z','D','e','F'], ['焦','作','市']),
  (['Z','I','e','s'], ['新','乡','市']),
  (['Y','m','f','I'], ['开','封','市']),
  (['Y','R','g','d'], ['商','丘','市']),
  (['Z','k','g','2'], ['濮','阳','市']),
  (['a','6','f','N'], ['安','阳','市']),
  (['Z','j','f','H'], ['鹤','壁','市']),
  (['Y','b','d','R'], ['洛','阳','市']),
  (['Y','l','c','C'], ['三','门','峡','市']),
  (['X','b','f','c'], ['汇','川','区']),
  (['Y','2','e','n'], ['魏','都','区']),
  (['X','Y','f','4'], ['召','陵','区']),
  (['X','Y','f','0'], ['汇','源','区']),
  (['X','Z','e','y'], ['郾','城','区']),
  (['W','w','f','3'], ['驿','城','区']),
  (['W','6','f','7'], ['平','桥','区']),
  (['W','7','f','3'], ['浉','河','区']),
  (['Y','j','e','a'], ['中','原','区']),
  (['Y','i','e','d'], ['二','七','区']),
  (['Y','j','e','e'], ['管','城','回','族','区']),
  (['Y','l','e','d'], ['金','水','区']),
  (['Y','q','e','a'], ['惠','济','区']),
  (['Y','n','e','H'], ['上','街','区']),
  (['X','i','e','K'], ['卫','东','区']),
  (['X','i','e','I'], ['新','华','区']),
  (['X','i','e','H'], ['湛','河','区']),
  (['X','s','d','r'], ['石','龙','区']),
  (['W','x','d','W'], ['卧','龙','区']),
  (['X','1','d','X'], ['宛','城','区']),
  (['Y','l','c','C'], ['湖','滨','区']),
  (['Y','s','d','Z'], ['吉','利','区']),
  (['Y','b','d','R'], ['洛','龙','区'])]

/-- part 1 of the places of lat_lon_data.cpp:40 -/
def r9_1 : List (List Char × List Char) := [
  (['Y','f','d','T'], ['瀍','河','回','族','区']),
  (['Y','f','d','S'], ['老','城','区']),
  (['Y','e','d','Q'], ['西','工','区']),
  (['Y','e','d','O'], ['涧','西','区']),
  (['Z','G','e','J'], ['马','村','区']),
  (['Z','D','e','F'], ['山','阳','区']),
  (['Z','F','e','D'], ['解','放','区']),
  (['Z','E','e','A'], ['中','站','区']),
  (['Z','s','f','B'], ['山','城','区']),
  (['Z','v','f','9'], ['鹤','山','区']),
  (['Z','i','f','I'], ['淇','滨','区']),
  (['Z','J','e','s'], ['牧','野','区']),
  (['Z','I','e','q'], ['红','旗','区']),
  (['Z','I','e','p'], ['卫','滨','区']),
  (['Z','N','e','t'], ['凤','泉','区']),
  (['a','5','f','L'], ['文','峰','区']),
  (['a','7','f','L'], ['北','关','区']),
  (['a','6','f','J'], ['龙','安','区']),
  (['a','7','f','I'], ['殷','都','区']),
  (['Z','l','g','4'], ['华','龙','区']),
  (['Y','A','d','o'], ['汝','州','市']),
  (['W','f','d','5'], ['邓','州','市']),
  (['X','R','f','s'], ['项','城','市']),
  (['X','I','e','V'], ['舞','钢','市']),
  (['Y','A','e','S'], ['禹','州','市']),
  (['Y','W','e','N'], ['新','密','市']),
  (['Y','O','e','i'], ['新','郑','市']),
  (['Y','D','e','k'], ['长','葛','市']),
  (['Y','l','e','O'], ['荥','阳','市']),
  (['Z','S','e','m'], ['辉','县','市']),
  (['Z','O','f','4'], ['卫','辉','市']),
  (['a','4','e','n'], ['林','州','市']),
  (['Z','4','d','Z'], ['济','源','市']),
  (['Z','5','d','u'], ['沁','阳','市']),
  (['Y','k','d','x'], ['巩','义','市']),
  (['Y','i','d','l'], ['偃','师','市']),
  (['Y','S','e','2'], ['登','封','市']),
  (['Y','s','d','l'], ['孟','州','市']),
  (['Y','j','c','q'], ['义','马','市']),
  (['Y','V','b','q'], ['灵','宝','市'])]

/-- part 2 of the places of lat_lon_data.cpp:40 -/
def r9_2 : List (List Char × List Char) := [
  (['X','t','h','Q'], ['永','城','市']),
  (['Y','N','g','c'], ['睢','阳','区']),
  (['Y','R','g','c'], ['梁','园','区']),
  (['Y','l','f','L'], ['禹','王','台','区']),
  (['Y','l','f','M'], ['金','明','区']),
  (['Y','m','f','L'], ['顺','河','回','族','区']),
  (['Y','l','f','L'], ['鼓','楼','区']),
  (['Y','m','f','L'], ['龙','亭','区']),
  (['Z','q','g','U'], ['范','县']),
  (['Y','3','c','3'], ['卢','氏','县']),
  (['X','H','c','T'], ['西','峡','县']),
  (['X','l','c','b'], ['栾','川','县']),
  (['X','8','c','T'], ['淅','川','县']),
  (['X','3','c','p'], ['内','乡','县']),
  (['X','2','d','E'], ['镇','平','县']),
  (['X','U','d','Q'], ['南','召','县']),
  (['Y','9','d','6'], ['嵩','县']),
  (['Y','9','d','S'], ['汝','阳','县']),
  (['X','i','d','s'], ['鲁','山','县']),
  (['X','r','e','4'], ['宝','丰','县']),
  (['X','G','d','y'], ['方','城','县']),
  (['X','3','d','u'], ['社','旗','县']),
  (['W','g','d','o'], ['唐','河','县']),
  (['W','M','e','O'], ['桐','柏','县']),
  (['W','V','d','L'], ['新','野','县']),
  (['W','h','e','J'], ['泌','阳','县']),
  (['W','m','f','1'], ['确','山','县']),
  (['W','a','f','N'], ['正','阳','县']),
  (['W','C','f','W'], ['罗','山','县']),
  (['V','c','f','q'], ['新','县']),
  (['W','1','f','s'], ['光','山','县']),
  (['V','m','g','O'], ['商','城','县']),
  (['W','B','g','f'], ['固','始','县']),
  (['W','j','f','x'], ['新','蔡','县']),
  (['W','Q','g','O'], ['淮','滨','县']),
  (['W','8','g','2'], ['潢','川','县']),
  (['W','L','f','i'], ['息','县']),
  (['W','w','f','c'], ['平','舆','县']),
  (['X','O','g','4'], ['沈','丘','县']),
  (['X','q','g','T'], ['鹿','邑','县'])]

/-- part 3 of the places of lat_lon_data.cpp:40 -/
def r9_3 : List (List Char × List Char) := [
  (['Y','4','g','I'], ['柘','城','县']),
  (['Y','4','f','p'], ['太','康','县']),
  (['X','d','g','C'], ['郸','城','县']),
  (['X','i','f','r'], ['淮','阳','县']),
  (['X','W','f','a'], ['商','水','县']),
  (['X','m','f','W'], ['西','华','县']),
  (['Y','4','f','N'], ['扶','沟','县']),
  (['Y','6','f','C'], ['鄢','陵','县']),
  (['X','n','e','u'], ['临','颍','县']),
  (['X','0','f','L'], ['汝','南','县']),
  (['X','9','e','y'], ['遂','平','县']),
  (['X','G','f','G'], ['上','蔡','县']),
  (['X','N','f','1'], ['西','平','县']),
  (['X','Q','e','a'], ['舞','阳','县']),
  (['X','b','e','L'], ['叶','县']),
  (['Y','0','e','o'], ['许','昌','县']),
  (['X','p','e','T'], ['襄','城','县']),
  (['X','w','e','D'], ['郏','县']),
  (['Z','E','e','Q'], ['修','武','县']),
  (['Z','6','e','N'], ['武','陟','县']),
  (['Z','G','e','d'], ['获','嘉','县']),
  (['Z','C','e','m'], ['新','乡','县']),
  (['Z','9','f','C'], ['延','津','县']),
  (['Z','a','f','C'], ['淇','县']),
  (['Z','Z','f','V'], ['滑','县']),
  (['Z','3','f','P'], ['封','丘','县']),
  (['Y','k','f','Q'], ['开','封','县']),
  (['Z','3','e','w'], ['原','阳','县']),
  (['Y','h','e','w'], ['中','牟','县']),
  (['Y','P','f','B'], ['尉','氏','县']),
  (['Y','T','f','S'], ['通','许','县']),
  (['Y','X','f','l'], ['杞','县']),
  (['Y','n','f','n'], ['兰','考','县']),
  (['Y','d','g','8'], ['民','权','县']),
  (['Y','R','g','4'], ['睢','县']),
  (['Y','R','g','J'], ['宁','陵','县']),
  (['Y','O','g','p'], ['虞','城','县']),
  (['Z','C','f','f'], ['长','垣','县']),
  (['Z','v','f','s'], ['内','黄','县']),
  (['a','5','g','C'], ['南','乐','县'])]

/-- part 4 of the places of lat_lon_data.cpp:40 -/
def r9_4 : List (List Char × List Char) := [
  (['Z','s','g','7'], ['清','丰','县']),
  (['Z','g','g','1'], ['濮','阳','县']),
  (['Z','y','g','p'], ['台','前','县']),
  (['a','6','f','L'], ['安','阳','县']),
  (['Z','e','f','X'], ['浚','县']),
  (['Z','t','f','L'], ['汤','阴','县']),
  (['Z','A','e','4'], ['博','爱','县']),
  (['Y','u','e','5'], ['温','县']),
  (['Y','o','d','Q'], ['孟','津','县']),
  (['Y','h','d','9'], ['新','安','县']),
  (['Y','P','d','P'], ['伊','川','县']),
  (['Y','V','d','A'], ['宜','阳','县']),
  (['Y','k','c','j'], ['渑','池','县']),
  (['Y','N','c','d'], ['洛','宁','县']),
  (['Y','g','c','5'], ['陕','县']),
  (['Y','E','h','8'], ['夏','邑','县'])]

/-- lat_lon_data.cpp:40 -/
def row9 : Row := ⟨['河','南','省'], r9_0 ++ (r9_1 ++ (r9_2 ++ (r9_3 ++ (r9_4))))⟩

/-- part 0 of the places of lat_lon_data.cpp:41 -/
def r10_0 : List (List Char × List Char) := [
  (['j','m','r','W'], ['哈','尔','滨','市']),
  (['o','P','p','7'], ['大','兴','安','岭','地','区']),
  (['l','K','o','v'], ['齐','齐','哈','尔','市']),
  (['k','Z','q','2'], ['大','庆','市']),
  (['i','Z','u','a'], ['牡','丹','江','市']),
  (['j','I','v','w'], ['鸡','西','市']),
  (['j','l','v','v'], ['七','台','河','市']),
  (['k','n','v','M'], ['佳','木','斯','市']),
  (['l','K','v','G'], ['鹤','岗','市']),
  (['k','c','w','9'], ['双','鸭','山','市']),
  (['l','i','t','s'], ['伊','春','市']),
  (['k','c','r','x'], ['绥','化','市']),
  (['o','F','s','T'], ['黑','河','市']),
  (['p','f','p','O'], ['新','林','区']),
  (['q','2','o','a'], ['呼','中','区']),
  (['l','9','o','m'], ['昂','昂','溪','区']),
  (['l','C','o','b'], ['富','拉','尔','基','区']),
  (['l','J','o','v'], ['龙','沙','区']),
  (['l','L','o','v'], ['建','华','区']),
  (['l','L','o','x'], ['铁','锋','区']),
  (['o','F','s','T'], ['爱','辉','区']),
  (['k','c','r','x'], ['北','林','区']),
  (['k','2','p','n'], ['大','同','区']),
  (['k','O','p','r'], ['红','岗','区']),
  (['k','W','q','6'], ['龙','凤','区']),
  (['k','a','q','1'], ['萨','尔','图','区']),
  (['k','d','p','p'], ['让','胡','路','区']),
  (['j','b','r','b'], ['平','房','区']),
  (['j','h','r','f'], ['香','坊','区']),
  (['j','k','r','f'], ['南','岗','区']),
  (['j','k','r','b'], ['道','里','区']),
  (['j','l','r','d'], ['道','外','区']),
  (['j','m','r','X'], ['松','北','区']),
  (['j','s','r','Z'], ['呼','兰','区']),
  (['j','X','r','x'], ['阿','城','区']),
  (['j','k','w','4'], ['茄','子','河','区']),
  (['j','m','v','o'], ['新','兴','区']),
  (['j','k','v','w'], ['桃','山','区']),
  (['l','1','u','1'], ['带','岭','区']),
  (['l','8','u','H'], ['南','岔','区'])]

/-- part 1 of the places of lat_lon_data.cpp:41 -/
def r10_1 : List (List Char × List Char) := [
  (['l','P','u','Q'], ['金','山','屯','区']),
  (['l','T','u','H'], ['西','林','区']),
  (['l','c','u','8'], ['美','溪','区']),
  (['l','h','t','l'], ['乌','马','河','区']),
  (['l','h','t','d'], ['翠','峦','区']),
  (['l','p','t','n'], ['友','好','区']),
  (['l','w','u','1'], ['上','甘','岭','区']),
  (['m','7','u','F'], ['五','营','区']),
  (['m','E','u','N'], ['红','星','区']),
  (['m','H','u','W'], ['新','青','区']),
  (['m','R','u','Y'], ['汤','旺','河','区']),
  (['m','a','u','P'], ['乌','伊','岭','区']),
  (['l','G','v','D'], ['兴','安','区']),
  (['l','M','v','I'], ['兴','山','区']),
  (['l','J','v','F'], ['工','农','区']),
  (['l','I','v','H'], ['南','山','区']),
  (['l','K','v','H'], ['向','阳','区']),
  (['l','K','v','J'], ['东','山','区']),
  (['k','n','v','M'], ['前','进','区']),
  (['k','m','v','J'], ['郊','区']),
  (['k','m','v','K'], ['向','阳','区']),
  (['k','n','v','O'], ['东','风','区']),
  (['k','Y','w','O'], ['宝','山','区']),
  (['k','Z','w','K'], ['四','方','台','区']),
  (['k','Y','w','8'], ['岭','东','区']),
  (['k','c','w','A'], ['尖','山','区']),
  (['j','K','w','0'], ['城','子','河','区']),
  (['j','I','v','w'], ['鸡','冠','区']),
  (['j','C','v','u'], ['恒','山','区']),
  (['j','M','v','l'], ['滴','道','区']),
  (['j','C','v','V'], ['麻','山','区']),
  (['j','5','v','f'], ['梨','树','区']),
  (['i','Z','u','Z'], ['爱','民','区']),
  (['i','Z','u','b'], ['东','安','区']),
  (['i','Y','u','b'], ['西','安','区']),
  (['i','a','u','c'], ['阳','明','区']),
  (['k','O','q','K'], ['安','达','市']),
  (['m','T','p','q'], ['讷','河','市']),
  (['m','V','r','C'], ['五','大','连','池','市']),
  (['m','E','r','V'], ['北','安','市'])]

/-- part 2 of the places of lat_lon_data.cpp:41 -/
def r10_2 : List (List Char × List Char) := [
  (['j','M','r','J'], ['双','城','市']),
  (['k','4','q','x'], ['肇','东','市']),
  (['i','t','s','9'], ['五','常','市']),
  (['j','D','s','v'], ['尚','志','市']),
  (['i','Y','u','N'], ['海','林','市']),
  (['i','L','u','S'], ['宁','安','市']),
  (['i','t','v','V'], ['穆','棱','市']),
  (['i','P','w','9'], ['绥','芬','河','市']),
  (['j','X','w','q'], ['密','山','市']),
  (['l','F','x','2'], ['富','锦','市']),
  (['k','x','t','1'], ['铁','力','市']),
  (['l','S','r','w'], ['海','伦','市']),
  (['l','d','x','V'], ['同','江','市']),
  (['j','k','x','x'], ['虎','林','市']),
  (['l','t','o','U'], ['甘','南','县']),
  (['l','K','o','B'], ['龙','江','县']),
  (['k','O','o','P'], ['泰','来','县']),
  (['k','q','p','R'], ['杜','尔','伯','特','蒙','古','族','自','治','县']),
  (['l','B','p','q'], ['林','甸','县']),
  (['l','n','p','S'], ['富','裕','县']),
  (['l','r','q','I'], ['依','安','县']),
  (['m','2','q','q'], ['克','山','县']),
  (['m','2','r','F'], ['克','东','县']),
  (['l','a','r','5'], ['拜','泉','县']),
  (['k','o','r','T'], ['望','奎','县']),
  (['k','f','r','6'], ['青','冈','县']),
  (['l','B','q','s'], ['明','水','县']),
  (['k','G','r','H'], ['兰','西','县']),
  (['j','g','q','G'], ['肇','州','县']),
  (['j','V','q','5'], ['肇','源','县']),
  (['k','5','s','O'], ['巴','彦','县']),
  (['j','j','s','T'], ['宾','县']),
  (['j','v','t','2'], ['木','兰','县']),
  (['j','R','t','K'], ['延','寿','县']),
  (['j','w','t','j'], ['通','河','县']),
  (['j','o','t','o'], ['方','正','县']),
  (['i','4','w','7'], ['东','宁','县']),
  (['j','F','w','8'], ['鸡','东','县']),
  (['j','j','v','Y'], ['勃','利','县']),
  (['j','I','v','G'], ['林','口','县'])]

/-- part 3 of the places of lat_lon_data.cpp:41 -/
def r10_3 : List (List Char × List Char) := [
  (['k','i','u','s'], ['汤','原','县']),
  (['l','1','v','h'], ['桦','川','县']),
  (['k','E','v','Y'], ['桦','南','县']),
  (['k','h','w','8'], ['集','贤','县']),
  (['k','l','w','m'], ['友','谊','县']),
  (['k','J','x','C'], ['宝','清','县']),
  (['l','H','w','p'], ['绥','滨','县']),
  (['l','Z','v','o'], ['萝','北','县']),
  (['m','r','v','N'], ['嘉','荫','县']),
  (['k','J','u','X'], ['依','兰','县']),
  (['k','r','s','V'], ['庆','安','县']),
  (['l','F','s','6'], ['绥','棱','县']),
  (['n','P','s','J'], ['孙','吴','县']),
  (['n','Z','t','S'], ['逊','克','县']),
  (['q','J','p','g'], ['塔','河','县']),
  (['p','i','r','d'], ['呼','玛','县']),
  (['q','w','n','W'], ['漠','河','县']),
  (['k','m','z','1'], ['饶','河','县']),
  (['m','M','z','H'], ['抚','远','县'])]

/-- lat_lon_data.cpp:41 -/
def row10 : Row := ⟨['黑','龙','江','省'], r10_0 ++ (r10_1 ++ (r10_2 ++ (r10_3)))⟩

/-- part 0 of the places of lat_lon_data.cpp:42 -/
def r11_0 : List (List Char × List Char) := [
  (['U','a','f','I'], ['武','汉','市']),
  (['U','I','a','S'], ['恩','施','土','家','族','苗','族','自','治','州']),
  (['U','K','d','E'], ['荆','州','市']),
  (['U','u','e','t'], ['孝','感','市']),
  (['V','h','e','M'], ['随','州','市']),
  (['V','2','d','C'], ['荆','门','市']),
  (['U','g','c','H'], ['宜','昌','市']),
  (['W','1','d','9'], ['襄','樊','市']),
  (['W','d','b','l'], ['十','堰','市']),
  (['U','C','g','2'], ['黄','石','市']),
  (['U','O','f','r'], ['鄂','州','市']),
  (['U','R','f','q'], ['黄','冈','市']),
  (['T','p','f','J'], ['咸','宁','市']),
  (['T','q','f','I'], ['咸','安','区']),
  (['U','5','f','e'], ['梁','子','湖','区']),
  (['U','O','f','r'], ['鄂','城','区']),
  (['U','B','f','w'], ['下','陆','区']),
  (['U','C','f','s'], ['铁','山','区']),
  (['U','C','g','7'], ['西','塞','山','区']),
  (['U','E','g','4'], ['黄','石','港','区']),
  (['U','Q','f','r'], ['黄','州','区']),
  (['U','t','e','t'], ['孝','南','区']),
  (['U','p','f','m'], ['新','洲','区']),
  (['U','q','f','M'], ['黄','陂','区']),
  (['U','W','f','i'], ['华','容','区']),
  (['U','L','f','J'], ['江','夏','区']),
  (['U','J','f','5'], ['汉','南','区']),
  (['U','Z','f','2'], ['蔡','甸','区']),
  (['U','b','f','8'], ['东','西','湖','区']),
  (['U','U','f','K'], ['洪','山','区']),
  (['U','Y','f','G'], ['硚','口','区']),
  (['U','Y','f','I'], ['武','昌','区']),
  (['U','X','f','G'], ['汉','阳','区']),
  (['U','a','f','G'], ['江','汉','区']),
  (['U','a','f','I'], ['江','岸','区']),
  (['U','c','f','N'], ['青','山','区']),
  (['W','a','b','n'], ['茅','箭','区']),
  (['W','d','b','l'], ['张','湾','区']),
  (['W','5','d','C'], ['襄','阳','区']),
  (['W','1','d','9'], ['襄','城','区'])]

/-- part 1 of the places of lat_lon_data.cpp:42 -/
def r11_1 : List (List Char × List Char) := [
  (['W','2','d','8'], ['樊','城','区']),
  (['U','x','d','C'], ['掇','刀','区']),
  (['V','3','d','C'], ['东','宝','区']),
  (['U','L','d','B'], ['荆','州','区']),
  (['V','h','e','M'], ['曾','都','区']),
  (['U','J','d','F'], ['沙','市','区']),
  (['U','k','c','J'], ['夷','陵','区']),
  (['U','g','c','G'], ['西','陵','区']),
  (['U','g','c','G'], ['点','军','区']),
  (['U','d','c','L'], ['伍','家','岗','区']),
  (['U','W','c','P'], ['猇','亭','区']),
  (['U','I','a','S'], ['恩','施','市']),
  (['U','I','Z','u'], ['利','川','市']),
  (['U','O','c','R'], ['宜','都','市']),
  (['U','Q','c','k'], ['枝','江','市']),
  (['U','B','c','k'], ['松','滋','市']),
  (['T','i','d','O'], ['石','首','市']),
  (['T','m','e','R'], ['洪','湖','市']),
  (['T','h','e','r'], ['赤','壁','市']),
  (['U','M','e','R'], ['仙','桃','市']),
  (['U','P','d','r'], ['潜','江','市']),
  (['U','e','e','A'], ['天','门','市']),
  (['U','d','e','o'], ['汉','川','市']),
  (['U','v','e','Y'], ['应','城','市']),
  (['V','G','e','f'], ['安','陆','市']),
  (['V','b','e','n'], ['广','水','市']),
  (['V','h','d','F'], ['宜','城','市']),
  (['V','A','d','Z'], ['钟','祥','市']),
  (['U','n','c','l'], ['当','阳','市']),
  (['W','X','c','V'], ['丹','江','口','市']),
  (['W','N','c','e'], ['老','河','口','市']),
  (['W','8','d','j'], ['枣','阳','市']),
  (['V','B','g','2'], ['麻','城','市']),
  (['U','6','f','w'], ['大','冶','市']),
  (['T','p','g','X'], ['武','穴','市']),
  (['T','f','a','9'], ['咸','丰','县']),
  (['T','V','a','O'], ['来','凤','县']),
  (['T','x','a','T'], ['宣','恩','县']),
  (['U','a','a','i'], ['建','始','县']),
  (['V','L','b','j'], ['兴','山','县'])]

/-- part 2 of the places of lat_lon_data.cpp:42 -/
def r11_2 : List (List Char × List Char) := [
  (['V','j','b','e'], ['神','农','架','林','区']),
  (['V','3','b','K'], ['巴','东','县']),
  (['U','o','b','x'], ['秭','归','县']),
  (['U','C','b','e'], ['五','峰','土','家','族','自','治','县']),
  (['T','s','b','2'], ['鹤','峰','县']),
  (['U','S','c','B'], ['长','阳','土','家','族','自','治','县']),
  (['U','4','d','E'], ['公','安','县']),
  (['U','2','d','P'], ['江','陵','县']),
  (['T','F','e','n'], ['通','城','县']),
  (['T','x','e','s'], ['嘉','鱼','县']),
  (['T','n','d','r'], ['监','利','县']),
  (['U','g','d','Z'], ['沙','洋','县']),
  (['V','1','e','6'], ['京','山','县']),
  (['V','1','e','j'], ['云','梦','县']),
  (['V','F','e','w'], ['孝','昌','县']),
  (['V','4','c','c'], ['远','安','县']),
  (['V','l','c','o'], ['南','漳','县']),
  (['V','r','c','F'], ['保','康','县']),
  (['W','G','c','d'], ['谷','城','县']),
  (['W','o','b','n'], ['郧','县']),
  (['W','4','b','i'], ['房','县']),
  (['W','E','b','E'], ['竹','山','县']),
  (['W','J','a','h'], ['竹','溪','县']),
  (['W','y','b','P'], ['郧','西','县']),
  (['U','j','g','e'], ['英','山','县']),
  (['V','H','f','b'], ['红','安','县']),
  (['V','Y','f','7'], ['大','悟','县']),
  (['U','c','f','q'], ['团','风','县']),
  (['U','l','g','O'], ['罗','田','县']),
  (['U','R','g','G'], ['浠','水','县']),
  (['T','p','g','C'], ['阳','新','县']),
  (['T','a','f','V'], ['通','山','县']),
  (['T','X','f','2'], ['崇','阳','县']),
  (['U','E','g','Q'], ['蕲','春','县']),
  (['U','5','g','u'], ['黄','梅','县']),
  (['U','9','h','7'], ['宿','松','县'])]

/-- lat_lon_data.cpp:42 -/
def row11 : Row := ⟨['湖','北','省'], r11_0 ++ (r11_1 ++ (r11_2))⟩

/-- part 0 of the places of lat_lon_data.cpp:43 -/
def r12_0 : List (List Char × List Char) := [
  (['S','E','d','u'], ['长','沙','市']),
  (['Q','Q','c','b'], ['永','州','市']),
  (['R','F','c','S'], ['邵','阳','市']),
  (['R','Y','a','y'], ['怀','化','市']),
  (['S','J','a','i'], ['湘','西','土','家','族','苗','族','自','治','州']),
  (['T','8','b','S'], ['张','家','界','市']),
  (['R','i','d','0'], ['娄','底','市']),
  (['R','o','d','u'], ['湘','潭','市']),
  (['S','a','d','J'], ['益','阳','市']),
  (['T','3','c','f'], ['常','德','市']),
  (['T','M','e','7'], ['岳','阳','市']),
  (['R','o','e','8'], ['株','洲','市']),
  (['Q','s','d','Y'], ['衡','阳','市']),
  (['P','l','e','1'], ['郴','州','市']),
  (['S','7','d','x'], ['天','心','区']),
  (['S','8','e','2'], ['雨','花','区']),
  (['S','B','e','2'], ['芙','蓉','区']),
  (['S','F','d','x'], ['开','福','区']),
  (['S','E','d','u'], ['岳','麓','区']),
  (['R','q','d','s'], ['雨','湖','区']),
  (['R','q','d','v'], ['岳','塘','区']),
  (['R','o','e','9'], ['芦','淞','区']),
  (['R','q','e','A'], ['荷','塘','区']),
  (['R','q','e','6'], ['石','峰','区']),
  (['R','o','e','7'], ['天','元','区']),
  (['R','F','d','i'], ['南','岳','区']),
  (['Q','s','d','a'], ['蒸','湘','区']),
  (['Q','r','d','a'], ['雁','峰','区']),
  (['Q','s','d','a'], ['石','鼓','区']),
  (['Q','s','d','b'], ['珠','晖','区']),
  (['P','m','e','1'], ['北','湖','区']),
  (['P','m','e','2'], ['苏','仙','区']),
  (['Q','E','c','b'], ['零','陵','区']),
  (['Q','Q','c','a'], ['冷','水','滩','区']),
  (['R','E','c','S'], ['双','清','区']),
  (['R','E','c','R'], ['大','祥','区']),
  (['R','F','c','R'], ['北','塔','区']),
  (['R','i','c','y'], ['娄','星','区']),
  (['R','X','a','v'], ['鹤','城','区']),
  (['T','8','b','T'], ['永','定','区'])]

/-- part 1 of the places of lat_lon_data.cpp:43 -/
def r12_1 : List (List Char × List Char) := [
  (['T','L','b','W'], ['武','陵','源','区']),
  (['T','2','c','f'], ['武','陵','区']),
  (['T','1','c','f'], ['鼎','城','区']),
  (['S','a','d','J'], ['资','阳','区']),
  (['S','a','d','M'], ['赫','山','区']),
  (['T','M','e','6'], ['岳','阳','楼','区']),
  (['T','Q','d','y'], ['君','山','区']),
  (['T','S','e','I'], ['云','溪','区']),
  (['Q','i','b','c'], ['武','冈','市']),
  (['R','C','a','n'], ['洪','江','市']),
  (['S','J','a','i'], ['吉','首','市']),
  (['R','g','c','e'], ['涟','源','市']),
  (['R','f','c','Q'], ['冷','水','江','市']),
  (['R','i','d','W'], ['湘','乡','市']),
  (['R','u','d','V'], ['韶','山','市']),
  (['S','m','e','5'], ['汨','罗','市']),
  (['S','p','d','N'], ['沅','江','市']),
  (['T','b','c','r'], ['津','市','市']),
  (['T','T','e','S'], ['临','湘','市']),
  (['S','9','e','c'], ['浏','阳','市']),
  (['R','e','e','T'], ['醴','陵','市']),
  (['Q','P','d','N'], ['常','宁','市']),
  (['Q','P','d','p'], ['耒','阳','市']),
  (['P','x','e','E'], ['资','兴','市']),
  (['P','B','c','Z'], ['江','华','瑶','族','自','治','县']),
  (['P','H','c','K'], ['江','永','县']),
  (['P','W','c','Z'], ['道','县']),
  (['P','w','c','d'], ['双','牌','县']),
  (['Q','M','b','J'], ['城','步','苗','族','自','治','县']),
  (['Q','Q','b','p'], ['新','宁','县']),
  (['Q','O','c','H'], ['东','安','县']),
  (['R','7','c','2'], ['隆','回','县']),
  (['Q','y','c','G'], ['邵','阳','县']),
  (['R','J','c','R'], ['新','邵','县']),
  (['R','3','b','Y'], ['洞','口','县']),
  (['R','O','a','u'], ['中','方','县']),
  (['R','R','a','f'], ['芷','江','侗','族','自','治','县']),
  (['Q','q','a','h'], ['会','同','县']),
  (['Q','Z','b','9'], ['绥','宁','县']),
  (['Q','Z','a','f'], ['靖','州','苗','族','侗','族','自','治','县'])]

/-- part 2 of the places of lat_lon_data.cpp:43 -/
def r12_2 : List (List Char × List Char) := [
  (['Q','A','a','l'], ['通','道','侗','族','自','治','县']),
  (['R','M','a','A'], ['新','晃','侗','族','自','治','县']),
  (['R','E','Z','t'], ['玉','屏','侗','族','自','治','县']),
  (['S','0','b','B'], ['辰','溪','县']),
  (['R','v','a','a'], ['凤','凰','县']),
  (['R','q','a','m'], ['麻','阳','苗','族','自','治','县']),
  (['S','D','b','D'], ['泸','溪','县']),
  (['S','b','a','v'], ['古','丈','县']),
  (['S','h','a','d'], ['保','靖','县']),
  (['S','Z','a','T'], ['花','垣','县']),
  (['T','S','a','Q'], ['龙','山','县']),
  (['T','O','b','9'], ['桑','植','县']),
  (['T','0','a','p'], ['永','顺','县']),
  (['T','Z','c','N'], ['石','门','县']),
  (['T','R','c','d'], ['临','澧','县']),
  (['T','P','c','7'], ['慈','利','县']),
  (['S','s','c','T'], ['桃','源','县']),
  (['S','N','c','D'], ['安','化','县']),
  (['S','S','b','N'], ['沅','陵','县']),
  (['R','t','b','Z'], ['溆','浦','县']),
  (['R','j','c','I'], ['新','化','县']),
  (['R','l','d','v'], ['湘','潭','县']),
  (['S','F','d','X'], ['宁','乡','县']),
  (['S','F','e','4'], ['长','沙','县']),
  (['S','M','d','n'], ['望','城','县']),
  (['S','f','d','r'], ['湘','阴','县']),
  (['S','W','d','7'], ['桃','江','县']),
  (['S','s','c','w'], ['汉','寿','县']),
  (['T','P','d','A'], ['安','乡','县']),
  (['T','c','c','j'], ['澧','县']),
  (['T','V','d','Y'], ['华','容','县']),
  (['T','N','d','O'], ['南','县']),
  (['T','9','e','7'], ['岳','阳','县']),
  (['S','h','e','Z'], ['平','江','县']),
  (['R','h','e','8'], ['株','洲','县']),
  (['Q','5','e','u'], ['桂','东','县']),
  (['Q','T','e','k'], ['炎','陵','县']),
  (['Q','8','e','6'], ['永','兴','县']),
  (['Q','g','e','G'], ['安','仁','县']),
  (['R','0','e','K'], ['攸','县'])]

/-- part 3 of the places of lat_lon_data.cpp:43 -/
def r12_3 : List (List Char × List Char) := [
  (['Q','m','e','W'], ['茶','陵','县']),
  (['R','E','d','q'], ['衡','山','县']),
  (['R','5','d','v'], ['衡','东','县']),
  (['R','R','d','C'], ['双','峰','县']),
  (['R','F','c','j'], ['邵','东','县']),
  (['Q','l','d','7'], ['祁','东','县']),
  (['Q','w','d','M'], ['衡','阳','县']),
  (['Q','Z','c','p'], ['祁','阳','县']),
  (['Q','i','d','e'], ['衡','南','县']),
  (['P','i','d','i'], ['桂','阳','县']),
  (['P','O','d','v'], ['宜','章','县']),
  (['P','t','d','D'], ['新','田','县']),
  (['P','a','c','u'], ['宁','远','县']),
  (['P','Z','d','M'], ['嘉','禾','县']),
  (['P','H','d','X'], ['临','武','县']),
  (['P','M','d','B'], ['蓝','山','县']),
  (['P','X','e','f'], ['汝','城','县'])]

/-- lat_lon_data.cpp:43 -/
def row12 : Row := ⟨['湖','南','省'], r12_0 ++ (r12_1 ++ (r12_2 ++ (r12_3)))⟩

/-- part 0 of the places of lat_lon_data.cpp:44 -/
def r13_0 : List (List Char × List Char) := [
  (['h','s','q','J'], ['长','春','市']),
  (['h','A','p','L'], ['四','平','市']),
  (['f','i','q','u'], ['通','化','市']),
  (['f','u','r','P'], ['白','山','市']),
  (['g','r','q','8'], ['辽','源','市']),
  (['h','o','r','X'], ['吉','林','市']),
  (['j','8','p','n'], ['松','原','市']),
  (['j','b','n','o'], ['白','城','市']),
  (['g','r','u','U'], ['延','边','朝','鲜','族','自','治','州']),
  (['j','b','n','p'], ['洮','北','区']),
  (['j','U','p','H'], ['大','安','市']),
  (['h','A','p','N'], ['铁','东','区']),
  (['h','9','p','L'], ['铁','西','区']),
  (['h','o','q','H'], ['朝','阳','区']),
  (['h','q','q','K'], ['南','关','区']),
  (['h','q','q','M'], ['二','道','区']),
  (['h','t','q','J'], ['宽','城','区']),
  (['h','r','q','F'], ['绿','园','区']),
  (['h','V','q','e'], ['双','阳','区']),
  (['h','t','r','Y'], ['龙','潭','区']),
  (['h','r','r','Y'], ['昌','邑','区']),
  (['h','n','r','Y'], ['丰','满','区']),
  (['h','o','r','W'], ['船','营','区']),
  (['g','3','r','Z'], ['江','源','区']),
  (['f','u','r','O'], ['八','道','江','区']),
  (['h','V','o','U'], ['双','辽','市']),
  (['f','7','r','B'], ['集','安','市']),
  (['f','m','r','s'], ['临','江','市']),
  (['g','v','r','3'], ['磐','石','市']),
  (['g','w','r','i'], ['桦','甸','市']),
  (['g','W','q','f'], ['梅','河','口','市']),
  (['h','U','p','n'], ['公','主','岭','市']),
  (['i','W','q','g'], ['德','惠','市']),
  (['i','9','q','o'], ['九','台','市']),
  (['h','h','s','K'], ['蛟','河','市']),
  (['i','P','r','v'], ['舒','兰','市']),
  (['i','n','r','X'], ['榆','树','市']),
  (['j','K','n','l'], ['洮','南','市']),
  (['g','w','u','o'], ['图','们','市']),
  (['g','k','u','P'], ['龙','井','市'])]

/-- part 1 of the places of lat_lon_data.cpp:44 -/
def r13_1 : List (List Char × List Char) := [
  (['g','r','u','U'], ['延','吉','市']),
  (['g','W','u','0'], ['和','龙','市']),
  (['g','q','v','M'], ['珲','春','市']),
  (['h','M','t','E'], ['敦','化','市']),
  (['j','A','p','m'], ['宁','江','区']),
  (['g','s','q','7'], ['龙','山','区']),
  (['g','t','q','9'], ['西','安','区']),
  (['f','k','r','2'], ['二','道','江','区']),
  (['f','i','q','v'], ['东','昌','区']),
  (['h','J','p','K'], ['梨','树','县']),
  (['f','f','q','j'], ['通','化','县']),
  (['g','f','r','2'], ['辉','南','县']),
  (['g','O','r','m'], ['靖','宇','县']),
  (['g','K','s','H'], ['抚','松','县']),
  (['h','L','q','I'], ['伊','通','满','族','自','治','县']),
  (['g','H','q','i'], ['柳','河','县']),
  (['g','f','q','W'], ['东','丰','县']),
  (['g','t','p','y'], ['东','辽','县']),
  (['i','Q','q','B'], ['农','安','县']),
  (['h','e','r','U'], ['永','吉','县']),
  (['i','x','r','1'], ['扶','余','县']),
  (['j','7','p','n'], ['前','郭','尔','罗','斯','蒙','古','族','自','治','县']),
  (['j','p','o','C'], ['镇','赉','县']),
  (['j','1','p','1'], ['乾','安','县']),
  (['i','H','o','x'], ['长','岭','县']),
  (['i','n','o','5'], ['通','榆','县']),
  (['h','J','u','j'], ['汪','清','县']),
  (['h','7','t','s'], ['安','图','县']),
  (['f','P','t','C'], ['长','白','朝','鲜','族','自','治','县'])]

/-- lat_lon_data.cpp:44 -/
def row13 : Row := ⟨['吉','林','省'], r13_0 ++ (r13_1)⟩

/-- part 0 of the places of lat_lon_data.cpp:45 -/
def r14_0 : List (List Char × List Char) := [
  (['W','4','j','l'], ['南','京','市']),
  (['X','b','k','1'], ['淮','安','市']),
  (['W','C','k','R'], ['镇','江','市']),
  (['V','l','k','v'], ['常','州','市']),
  (['V','Y','l','I'], ['无','锡','市']),
  (['V','I','l','Z'], ['苏','州','市']),
  (['V','x','l','r'], ['南','通','市']),
  (['X','L','l','9'], ['盐','城','市']),
  (['W','R','k','t'], ['泰','州','市']),
  (['W','O','k','O'], ['扬','州','市']),
  (['Y','a','k','D'], ['连','云','港','市']),
  (['X','w','j','H'], ['宿','迁','市']),
  (['Y','G','i','B'], ['徐','州','市']),
  (['Y','j','k','M'], ['连','云','区']),
  (['Y','a','k','A'], ['新','浦','区']),
  (['Y','Y','k','7'], ['海','州','区']),
  (['Y','R','i','R'], ['贾','汪','区']),
  (['Y','I','i','8'], ['九','里','区']),
  (['Y','H','i','B'], ['鼓','楼','区']),
  (['Y','F','i','D'], ['云','龙','区']),
  (['Y','F','i','B'], ['泉','山','区']),
  (['X','v','j','J'], ['宿','豫','区']),
  (['X','w','j','F'], ['宿','城','区']),
  (['X','U','k','8'], ['楚','州','区']),
  (['X','c','k','2'], ['淮','阴','区']),
  (['X','a','k','1'], ['清','河','区']),
  (['X','Z','k','2'], ['清','浦','区']),
  (['X','O','l','8'], ['亭','湖','区']),
  (['X','K','l','9'], ['盐','都','区']),
  (['W','2','l','m'], ['港','闸','区']),
  (['V','y','l','p'], ['崇','川','区']),
  (['W','N','k','O'], ['邗','江','区']),
  (['W','N','k','Q'], ['广','陵','区']),
  (['W','P','k','O'], ['维','扬','区']),
  (['W','7','j','r'], ['栖','霞','区']),
  (['W','4','j','k'], ['鼓','楼','区']),
  (['W','3','j','m'], ['玄','武','区']),
  (['W','2','j','l'], ['白','下','区']),
  (['W','2','j','j'], ['建','邺','区']),
  (['W','1','j','m'], ['秦','淮','区'])]

/-- part 1 of the places of lat_lon_data.cpp:45 -/
def r14_1 : List (List Char × List Char) := [
  (['V','v','j','p'], ['江','宁','区']),
  (['W','8','k','R'], ['丹','徒','区']),
  (['W','C','k','O'], ['润','州','区']),
  (['W','C','k','S'], ['京','口','区']),
  (['V','o','k','w'], ['新','北','区']),
  (['V','i','l','3'], ['戚','墅','堰','区']),
  (['V','h','k','u'], ['武','进','区']),
  (['V','j','k','u'], ['天','宁','区']),
  (['V','l','k','u'], ['钟','楼','区']),
  (['V','f','l','H'], ['惠','山','区']),
  (['V','a','l','L'], ['锡','山','区']),
  (['V','Z','l','I'], ['崇','安','区']),
  (['V','Z','l','H'], ['北','塘','区']),
  (['V','Y','l','I'], ['南','长','区']),
  (['V','Y','l','G'], ['滨','湖','区']),
  (['V','I','l','c'], ['沧','浪','区']),
  (['V','J','l','c'], ['平','江','区']),
  (['V','J','l','a'], ['金','阊','区']),
  (['V','M','l','c'], ['相','城','区']),
  (['V','G','l','c'], ['吴','中','区']),
  (['W','G','k','B'], ['仪','征','市']),
  (['V','v','k','A'], ['句','容','市']),
  (['V','L','k','n'], ['宜','兴','市']),
  (['V','P','k','T'], ['溧','阳','市']),
  (['V','y','k','Y'], ['丹','阳','市']),
  (['W','E','k','n'], ['扬','中','市']),
  (['V','j','k','Y'], ['金','坛','市']),
  (['W','A','l','1'], ['泰','兴','市']),
  (['V','s','l','G'], ['江','阴','市']),
  (['W','1','l','G'], ['靖','江','市']),
  (['V','q','l','X'], ['张','家','港','市']),
  (['V','A','l','c'], ['吴','江','市']),
  (['V','N','l','x'], ['昆','山','市']),
  (['V','R','m','6'], ['太','仓','市']),
  (['V','n','m','d'], ['启','东','市']),
  (['W','5','m','4'], ['通','州','市']),
  (['V','s','m','A'], ['海','门','市']),
  (['V','d','l','j'], ['常','熟','市']),
  (['X','C','l','S'], ['大','丰','市']),
  (['W','p','l','I'], ['东','台','市'])]

/-- part 2 of the places of lat_lon_data.cpp:45 -/
def r14_2 : List (List Char × List Char) := [
  (['W','O','l','Y'], ['如','皋','市']),
  (['W','V','l','9'], ['姜','堰','市']),
  (['W','t','k','p'], ['兴','化','市']),
  (['W','Q','k','X'], ['江','都','市']),
  (['W','l','k','Q'], ['高','邮','市']),
  (['W','5','j','i'], ['下','关','区']),
  (['Y','J','i','v'], ['邳','州','市']),
  (['V','y','j','k'], ['雨','花','台','区']),
  (['W','3','j','b'], ['浦','口','区']),
  (['W','L','j','o'], ['六','合','区']),
  (['V','I','l','Y'], ['虎','丘','区']),
  (['Y','N','j','L'], ['新','沂','市']),
  (['X','S','j','D'], ['泗','洪','县']),
  (['X','0','j','T'], ['盱','眙','县']),
  (['X','I','j','o'], ['洪','泽','县']),
  (['X','1','k','1'], ['金','湖','县']),
  (['V','d','k','1'], ['溧','水','县']),
  (['V','K','j','r'], ['高','淳','县']),
  (['W','J','m','B'], ['如','东','县']),
  (['W','X','l','R'], ['海','安','县']),
  (['X','E','k','I'], ['宝','应','县']),
  (['X','S','k','m'], ['建','湖','县']),
  (['X','l','k','G'], ['涟','水','县']),
  (['X','l','k','m'], ['阜','宁','县']),
  (['X','x','k','o'], ['滨','海','县']),
  (['Y','C','k','Y'], ['响','水','县']),
  (['Y','5','k','L'], ['灌','南','县']),
  (['Y','I','k','F'], ['灌','云','县']),
  (['X','l','l','F'], ['射','阳','县']),
  (['Y','o','k','7'], ['赣','榆','县']),
  (['Y','W','j','k'], ['东','海','县']),
  (['X','h','j','f'], ['泗','阳','县']),
  (['Y','8','j','k'], ['沭','阳','县']),
  (['X','s','i','v'], ['睢','宁','县']),
  (['Y','B','i','A'], ['铜','山','县']),
  (['Y','i','h','u'], ['沛','县']),
  (['Y','g','h','a'], ['丰','县'])]

/-- lat_lon_data.cpp:45 -/
def row14 : Row := ⟨['江','苏','省'], r14_0 ++ (r14_1 ++ (r14_2))⟩

/-- part 0 of the places of lat_lon_data.cpp:46 -/
def r15_0 : List (List Char × List Char) := [
  (['S','f','g','p'], ['南','昌','市']),
  (['P','o','f','u'], ['赣','州','市']),
  (['R','7','f','x'], ['吉','安','市']),
  (['R','c','e','p'], ['萍','乡','市']),
  (['R','n','f','t'], ['新','余','市']),
  (['R','m','f','N'], ['宜','春','市']),
  (['T','g','g','y'], ['九','江','市']),
  (['R','y','h','L'], ['抚','州','市']),
  (['S','G','i','4'], ['鹰','潭','市']),
  (['T','G','i','A'], ['景','德','镇','市']),
  (['S','R','i','w'], ['上','饶','市']),
  (['S','E','i','3'], ['月','湖','区']),
  (['S','Q','i','v'], ['信','州','区']),
  (['T','I','i','C'], ['珠','山','区']),
  (['T','G','i','A'], ['昌','江','区']),
  (['R','x','h','L'], ['临','川','区']),
  (['S','h','g','i'], ['湾','里','区']),
  (['S','c','g','t'], ['青','云','谱','区']),
  (['S','f','g','v'], ['青','山','湖','区']),
  (['S','f','g','s'], ['东','湖','区']),
  (['S','e','g','q'], ['西','湖','区']),
  (['T','f','g','x'], ['庐','山','区']),
  (['T','i','g','x'], ['浔','阳','区']),
  (['R','d','e','i'], ['湘','东','区']),
  (['R','d','e','q'], ['安','源','区']),
  (['R','m','f','N'], ['袁','州','区']),
  (['R','m','f','u'], ['渝','水','区']),
  (['R','6','f','y'], ['青','原','区']),
  (['R','7','f','x'], ['吉','州','区']),
  (['P','q','f','u'], ['章','贡','区']),
  (['P','d','f','j'], ['南','康','市']),
  (['P','r','h','2'], ['瑞','金','市']),
  (['Q','h','f','G'], ['井','冈','山','市']),
  (['T','f','g','e'], ['瑞','昌','市']),
  (['S','C','g','l'], ['丰','城','市']),
  (['S','P','g','M'], ['高','安','市']),
  (['S','4','g','W'], ['樟','树','市']),
  (['S','H','i','D'], ['贵','溪','市']),
  (['S','w','i','7'], ['乐','平','市']),
  (['S','v','i','Y'], ['德','兴','市'])]

/-- part 1 of the places of lat_lon_data.cpp:46 -/
def r15_1 : List (List Char × List Char) := [
  (['P','g','f','I'], ['崇','义','县']),
  (['P','O','f','L'], ['大','余','县']),
  (['P','m','f','W'], ['上','犹','县']),
  (['P','q','g','0'], ['赣','县']),
  (['P','N','f','u'], ['信','丰','县']),
  (['O','t','f','l'], ['龙','南','县']),
  (['O','j','f','V'], ['全','南','县']),
  (['O','l','g','2'], ['定','南','县']),
  (['P','8','g','N'], ['安','远','县']),
  (['O','v','g','d'], ['寻','乌','县']),
  (['P','a','g','l'], ['会','昌','县']),
  (['Q','K','g','L'], ['兴','国','县']),
  (['P','v','g','P'], ['于','都','县']),
  (['Q','K','h','K'], ['石','城','县']),
  (['Q','T','h','1'], ['宁','都','县']),
  (['Q','o','h','J'], ['广','昌','县']),
  (['Q','m','f','r'], ['泰','和','县']),
  (['R','3','f','s'], ['吉','安','县']),
  (['R','D','g','8'], ['吉','水','县']),
  (['Q','S','f','l'], ['万','安','县']),
  (['Q','K','f','V'], ['遂','川','县']),
  (['Q','v','f','E'], ['永','新','县']),
  (['R','8','e','v'], ['莲','花','县']),
  (['R','r','e','m'], ['上','栗','县']),
  (['R','c','f','2'], ['芦','溪','县']),
  (['R','N','f','b'], ['安','福','县']),
  (['R','n','f','e'], ['分','宜','县']),
  (['S','7','f','Q'], ['万','载','县']),
  (['S','N','f','l'], ['宜','丰','县']),
  (['S','E','f','t'], ['上','高','县']),
  (['S','W','f','M'], ['铜','鼓','县']),
  (['T','2','f','Y'], ['修','水','县']),
  (['S','q','g','L'], ['靖','安','县']),
  (['S','p','g','X'], ['安','义','县']),
  (['T','G','g','6'], ['武','宁','县']),
  (['T','R','h','2'], ['星','子','县']),
  (['T','b','g','r'], ['九','江','县']),
  (['T','i','h','D'], ['湖','口','县']),
  (['T','G','h','B'], ['都','昌','县']),
  (['T','K','g','k'], ['德','安','县'])]

/-- part 2 of the places of lat_lon_data.cpp:46 -/
def r15_2 : List (List Char × List Char) := [
  (['T','2','g','m'], ['永','修','县']),
  (['S','M','h','G'], ['进','贤','县']),
  (['S','X','g','u'], ['南','昌','县']),
  (['S','g','g','n'], ['新','建','县']),
  (['S','g','g','N'], ['奉','新','县']),
  (['R','k','g','O'], ['新','干','县']),
  (['R','b','g','K'], ['峡','江','县']),
  (['R','J','g','Q'], ['永','丰','县']),
  (['R','Q','g','o'], ['乐','安','县']),
  (['R','k','h','3'], ['崇','仁','县']),
  (['R','X','h','D'], ['宜','黄','县']),
  (['R','X','h','c'], ['南','城','县']),
  (['R','t','h','k'], ['金','溪','县']),
  (['R','g','i','4'], ['资','溪','县']),
  (['S','P','i','a'], ['横','峰','县']),
  (['S','J','i','g'], ['铅','山','县']),
  (['S','O','i','Q'], ['弋','阳','县']),
  (['S','g','i','4'], ['万','年','县']),
  (['S','C','h','n'], ['余','江','县']),
  (['S','E','h','b'], ['东','乡','县']),
  (['S','g','h','f'], ['余','干','县']),
  (['S','y','h','e'], ['鄱','阳','县']),
  (['T','s','h','X'], ['彭','泽','县']),
  (['T','M','i','F'], ['浮','梁','县']),
  (['T','F','i','p'], ['婺','源','县']),
  (['S','Q','j','B'], ['广','丰','县']),
  (['R','D','h','W'], ['南','丰','县']),
  (['R','I','h','t'], ['黎','川','县']),
  (['S','f','j','F'], ['玉','山','县']),
  (['S','Q','i','t'], ['上','饶','县'])]

/-- lat_lon_data.cpp:46 -/
def row15 : Row := ⟨['江','西','省'], r15_0 ++ (r15_1 ++ (r15_2))⟩

/-- part 0 of the places of lat_lon_data.cpp:47 -/
def r16_0 : List (List Char × List Char) := [
  (['f','m','o','Q'], ['沈','阳','市']),
  (['e','h','l','o'], ['葫','芦','岛','市']),
  (['f','6','m','8'], ['锦','州','市']),
  (['c','t','m','b'], ['大','连','市']),
  (['e','8','p','N'], ['丹','东','市']),
  (['f','I','o','k'], ['本','溪','市']),
  (['f','G','o','A'], ['辽','阳','市']),
  (['f','6','n','x'], ['鞍','山','市']),
  (['e','e','n','E'], ['营','口','市']),
  (['f','7','n','4'], ['盘','锦','市']),
  (['f','r','o','x'], ['抚','顺','市']),
  (['g','H','o','o'], ['铁','岭','市']),
  (['g','1','m','e'], ['阜','新','市']),
  (['f','Y','l','R'], ['朝','阳','市']),
  (['f','C','n','3'], ['双','台','子','区']),
  (['f','7','n','4'], ['兴','隆','台','区']),
  (['f','8','o','R'], ['弓','长','岭','区']),
  (['f','C','o','C'], ['宏','伟','区']),
  (['f','4','n','w'], ['千','山','区']),
  (['f','6','n','x'], ['铁','东','区']),
  (['f','7','n','v'], ['铁','西','区']),
  (['f','9','n','y'], ['立','山','区']),
  (['e','e','n','M'], ['老','边','区']),
  (['e','e','n','D'], ['西','市','区']),
  (['e','f','n','G'], ['站','前','区']),
  (['e','G','n','7'], ['鲅','鱼','圈','区']),
  (['c','n','m','G'], ['旅','顺','口','区']),
  (['g','H','o','p'], ['银','州','区']),
  (['f','l','o','I'], ['于','洪','区']),
  (['f','k','o','S'], ['东','陵','区']),
  (['f','m','o','L'], ['铁','西','区']),
  (['d','6','m','g'], ['金','州','区']),
  (['f','l','o','O'], ['和','平','区']),
  (['c','t','m','a'], ['西','岗','区']),
  (['f','m','o','R'], ['沈','河','区']),
  (['g','W','p','9'], ['清','河','区']),
  (['c','t','m','c'], ['中','山','区']),
  (['c','v','m','Y'], ['甘','井','子','区']),
  (['c','s','m','Z'], ['沙','河','口','区']),
  (['f','n','o','P'], ['皇','姑','区'])]

/-- part 1 of the places of lat_lon_data.cpp:47 -/
def r16_1 : List (List Char × List Char) := [
  (['f','m','o','S'], ['大','东','区']),
  (['f','e','o','K'], ['苏','家','屯','区']),
  (['g','3','o','V'], ['新','城','子','区']),
  (['g','1','m','d'], ['海','州','区']),
  (['g','1','m','e'], ['太','平','区']),
  (['g','2','m','f'], ['细','河','区']),
  (['f','j','m','P'], ['清','河','门','区']),
  (['f','Y','l','R'], ['双','塔','区']),
  (['f','a','l','Q'], ['龙','城','区']),
  (['f','Z','l','S'], ['朝','阳','县']),
  (['f','7','m','9'], ['凌','河','区']),
  (['f','8','m','7'], ['古','塔','区']),
  (['f','6','m','6'], ['太','和','区']),
  (['f','6','l','j'], ['南','票','区']),
  (['e','k','l','q'], ['连','山','区']),
  (['e','h','l','u'], ['龙','港','区']),
  (['f','F','k','O'], ['凌','源','市']),
  (['e','b','l','h'], ['兴','城','市']),
  (['f','A','m','L'], ['凌','海','市']),
  (['d','O','m','v'], ['普','兰','店','市']),
  (['d','b','m','y'], ['瓦','房','店','市']),
  (['d','g','n','x'], ['庄','河','市']),
  (['d','q','p','9'], ['东','港','市']),
  (['e','R','p','4'], ['凤','城','市']),
  (['f','P','o','K'], ['灯','塔','市']),
  (['e','r','n','g'], ['海','城','市']),
  (['e','O','n','L'], ['盖','州','市']),
  (['e','d','n','U'], ['大','石','桥','市']),
  (['f','a','m','m'], ['北','镇','市']),
  (['f','y','n','n'], ['新','民','市']),
  (['g','X','p','2'], ['开','原','市']),
  (['g','S','o','X'], ['调','兵','山','市']),
  (['f','m','l','k'], ['北','票','市']),
  (['f','F','o','B'], ['太','子','河','区']),
  (['f','G','o','B'], ['文','圣','区']),
  (['f','G','o','A'], ['白','塔','区']),
  (['e','5','p','L'], ['振','兴','区']),
  (['e','A','p','P'], ['振','安','区']),
  (['e','8','p','N'], ['元','宝','区']),
  (['f','6','o','i'], ['南','芬','区'])]

/-- part 2 of the places of lat_lon_data.cpp:47 -/
def r16_2 : List (List Char × List Char) := [
  (['f','K','o','k'], ['溪','湖','区']),
  (['f','I','o','n'], ['明','山','区']),
  (['f','I','o','k'], ['平','山','区']),
  (['f','p','o','l'], ['望','花','区']),
  (['f','p','p','1'], ['东','洲','区']),
  (['f','q','o','r'], ['新','抚','区']),
  (['f','r','o','u'], ['顺','城','区']),
  (['f','8','k','i'], ['喀','喇','沁','左','翼','蒙','古','族','自','治','县']),
  (['e','n','k','m'], ['建','昌','县']),
  (['f','O','k','c'], ['建','平','县']),
  (['e','J','l','K'], ['绥','中','县']),
  (['d','G','n','Z'], ['长','海','县']),
  (['e','H','o','H'], ['岫','岩','满','族','自','治','县']),
  (['f','I','p','7'], ['本','溪','满','族','自','治','县']),
  (['f','D','o','4'], ['辽','阳','县']),
  (['f','N','n','P'], ['台','安','县']),
  (['e','x','n','4'], ['大','洼','县']),
  (['f','F','n','1'], ['盘','山','县']),
  (['f','g','n','7'], ['黑','山','县']),
  (['g','4','m','j'], ['阜','新','蒙','古','族','自','治','县']),
  (['g','N','n','W'], ['彰','武','县']),
  (['f','V','n','h'], ['辽','中','县']),
  (['f','r','o','s'], ['抚','顺','县']),
  (['g','l','p','6'], ['昌','图','县']),
  (['g','I','o','o'], ['铁','岭','县']),
  (['g','U','o','O'], ['法','库','县']),
  (['g','j','o','L'], ['康','平','县']),
  (['f','W','m','E'], ['义','县']),
  (['g','i','p','h'], ['西','丰','县']),
  (['g','6','p','t'], ['清','原','满','族','自','治','县']),
  (['f','i','q','2'], ['新','宾','满','族','自','治','县']),
  (['f','G','q','L'], ['桓','仁','满','族','自','治','县']),
  (['e','i','p','l'], ['宽','甸','满','族','自','治','县'])]

/-- lat_lon_data.cpp:47 -/
def row16 : Row := ⟨['辽','宁','省'], r16_0 ++ (r16_1 ++ (r16_2))⟩

/-- part 0 of the places of lat_lon_data.cpp:48 -/
def r17_0 : List (List Char × List Char) := [
  (['e','o','c','i'], ['呼','和','浩','特','市']),
  (['e','j','Y','P'], ['巴','彦','淖','尔','市']),
  (['c','o','W','e'], ['阿','拉','善','盟']),
  (['d','e','X','n'], ['乌','海','市']),
  (['d','b','a','m'], ['鄂','尔','多','斯','市']),
  (['e','d','a','o'], ['包','头','市']),
  (['e','x','e','7'], ['乌','兰','察','布','市']),
  (['g','G','j','t'], ['赤','峰','市']),
  (['h','v','h','4'], ['锡','林','郭','勒','盟']),
  (['n','D','k','k'], ['呼','伦','贝','尔','市']),
  (['k','5','n','3'], ['兴','安','盟']),
  (['h','b','n','G'], ['通','辽','市']),
  (['n','D','k','k'], ['海','拉','尔','区']),
  (['o','m','p','H'], ['松','岭','区']),
  (['o','P','p','7'], ['加','格','达','奇','区']),
  (['m','S','p','U'], ['莫','力','达','瓦','达','斡','尔','族','自','治','旗']),
  (['h','b','n','G'], ['科','尔','沁','区']),
  (['g','2','k','H'], ['元','宝','山','区']),
  (['g','H','j','t'], ['松','山','区']),
  (['g','H','j','w'], ['红','山','区']),
  (['f','2','e','6'], ['集','宁','区']),
  (['e','j','c','e'], ['玉','泉','区']),
  (['e','m','c','a'], ['回','民','区']),
  (['e','m','c','f'], ['赛','罕','区']),
  (['e','q','c','d'], ['新','城','区']),
  (['f','k','a','w'], ['白','云','鄂','博','矿','区']),
  (['e','f','b','G'], ['石','拐','区']),
  (['e','Z','b','1'], ['东','河','区']),
  (['e','a','a','w'], ['九','原','区']),
  (['e','d','a','s'], ['青','山','区']),
  (['e','c','a','o'], ['昆','都','仑','区']),
  (['e','j','Y','O'], ['临','河','区']),
  (['d','n','b','0'], ['东','胜','区']),
  (['d','Q','X','r'], ['海','南','区']),
  (['d','U','X','g'], ['乌','达','区']),
  (['d','g','X','o'], ['海','勃','湾','区']),
  (['e','Q','e','9'], ['丰','镇','市']),
  (['h','u','h','4'], ['锡','林','浩','特','市']),
  (['j','W','k','d'], ['霍','林','郭','勒','市']),
  (['h','d','c','x'], ['二','连','浩','特','市'])]

/-- part 1 of the places of lat_lon_data.cpp:48 -/
def r17_1 : List (List Char × List Char) := [
  (['n','Z','i','R'], ['满','洲','里','市']),
  (['o','l','m','V'], ['根','河','市']),
  (['o','E','l','B'], ['额','尔','古','纳','市']),
  (['n','H','l','i'], ['牙','克','石','市']),
  (['l','x','n','j'], ['扎','兰','屯','市']),
  (['l','B','k','u'], ['阿','尔','山','市']),
  (['k','5','n','3'], ['乌','兰','浩','特','市']),
  (['d','C','S','f'], ['阿','拉','善','右','旗']),
  (['f','w','S','4'], ['额','济','纳','旗']),
  (['f','6','Y','4'], ['乌','拉','特','后','旗']),
  (['f','6','Z','G'], ['五','原','县']),
  (['e','r','Y','9'], ['杭','锦','后','旗']),
  (['e','K','Y','1'], ['磴','口','县']),
  (['c','o','W','e'], ['阿','拉','善','左','旗']),
  (['c','B','Y','T'], ['鄂','托','克','前','旗']),
  (['d','6','Y','x'], ['鄂','托','克','旗']),
  (['c','a','Z','p'], ['乌','审','旗']),
  (['d','q','c','E'], ['准','格','尔','旗']),
  (['d','Y','a','i'], ['伊','金','霍','洛','旗']),
  (['d','o','Z','h'], ['杭','锦','旗']),
  (['e','h','Z','d'], ['乌','拉','特','前','旗']),
  (['f','Y','Z','V'], ['乌','拉','特','中','旗']),
  (['f','g','b','Q'], ['达','尔','罕','茂','明','安','联','合','旗']),
  (['f','2','b','3'], ['固','阳','县']),
  (['e','O','b','2'], ['达','拉','特','旗']),
  (['e','Y','b','V'], ['土','默','特','右','旗']),
  (['e','h','c','8'], ['土','默','特','左','旗']),
  (['e','G','c','B'], ['托','克','托','县']),
  (['e','N','c','n'], ['和','林','格','尔','县']),
  (['e','W','d','T'], ['凉','城','县']),
  (['e','s','d','Y'], ['卓','资','县']),
  (['f','G','d','c'], ['察','哈','尔','右','翼','中','旗']),
  (['f','V','c','g'], ['四','子','王','旗']),
  (['f','5','c','R'], ['武','川','县']),
  (['g','j','d','d'], ['苏','尼','特','右','旗']),
  (['g','E','e','o'], ['镶','黄','旗']),
  (['f','s','e','y'], ['化','德','县']),
  (['f','X','e','W'], ['商','都','县']),
  (['f','R','e','B'], ['察','哈','尔','右','翼','后','旗']),
  (['e','l','e','D'], ['察','哈','尔','右','翼','前','旗'])]

/-- part 2 of the places of lat_lon_data.cpp:48 -/
def r17_2 : List (List Char × List Char) := [
  (['e','r','e','r'], ['兴','和','县']),
  (['d','t','c','f'], ['清','水','河','县']),
  (['f','a','k','K'], ['宁','城','县']),
  (['f','u','j','g'], ['喀','喇','沁','旗']),
  (['g','u','k','1'], ['翁','牛','特','旗']),
  (['g','B','h','S'], ['多','伦','县']),
  (['g','F','g','y'], ['正','蓝','旗']),
  (['f','s','g','H'], ['太','仆','寺','旗']),
  (['g','I','f','y'], ['正','镶','白','旗']),
  (['i','1','f','w'], ['阿','巴','嘎','旗']),
  (['h','F','i','W'], ['克','什','克','腾','旗']),
  (['h','x','k','N'], ['巴','林','左','旗']),
  (['h','a','j','3'], ['林','西','县']),
  (['h','V','j','e'], ['巴','林','右','旗']),
  (['i','Z','i','a'], ['西','乌','珠','穆','沁','旗']),
  (['j','V','h','w'], ['东','乌','珠','穆','沁','旗']),
  (['m','D','j','G'], ['新','巴','尔','虎','左','旗']),
  (['m','e','h','n'], ['新','巴','尔','虎','右','旗']),
  (['h','p','e','c'], ['苏','尼','特','左','旗']),
  (['n','J','k','Q'], ['陈','巴','尔','虎','旗']),
  (['n','8','k','j'], ['鄂','温','克','族','自','治','旗']),
  (['o','Z','o','h'], ['鄂','伦','春','自','治','旗']),
  (['k','i','n','s'], ['扎','赉','特','旗']),
  (['m','8','o','S'], ['阿','荣','旗']),
  (['k','4','m','t'], ['科','尔','沁','右','翼','前','旗']),
  (['j','3','m','S'], ['科','尔','沁','右','翼','中','旗']),
  (['j','N','m','Y'], ['突','泉','县']),
  (['i','X','l','t'], ['扎','鲁','特','旗']),
  (['h','r','l','5'], ['阿','鲁','科','尔','沁','旗']),
  (['h','a','m','I'], ['开','鲁','县']),
  (['g','v','n','L'], ['科','尔','沁','左','翼','后','旗']),
  (['g','p','l','d'], ['奈','曼','旗']),
  (['i','8','o','J'], ['科','尔','沁','左','翼','中','旗']),
  (['g','i','m','k'], ['库','伦','旗']),
  (['g','H','k','s'], ['敖','汉','旗'])]

/-- lat_lon_data.cpp:48 -/
def row17 : Row := ⟨['内','蒙','古','自','治','区'], r17_0 ++ (r17_1 ++ (r17_2))⟩

/-- part 0 of the places of lat_lon_data.cpp:49 -/
def r18_0 : List (List Char × List Char) := [
  (['c','S','X','H'], ['银','川','市']),
  (['a','0','X','H'], ['固','原','市']),
  (['b','x','X','C'], ['吴','忠','市']),
  (['b','V','W','B'], ['中','卫','市']),
  (['d','1','X','N'], ['石','嘴','山','市']),
  (['d','F','X','l'], ['惠','农','区']),
  (['d','1','X','N'], ['大','武','口','区']),
  (['c','T','X','B'], ['西','夏','区']),
  (['c','T','X','H'], ['兴','庆','区']),
  (['c','S','X','F'], ['金','凤','区']),
  (['b','x','X','C'], ['利','通','区']),
  (['b','V','W','B'], ['沙','坡','头','区']),
  (['a','0','X','H'], ['原','州','区']),
  (['c','1','X','4'], ['青','铜','峡','市']),
  (['c','6','X','K'], ['灵','武','市']),
  (['a','Y','W','d'], ['海','原','县']),
  (['Z','w','W','i'], ['西','吉','县']),
  (['Z','b','X','7'], ['隆','德','县']),
  (['Z','T','X','K'], ['泾','源','县']),
  (['Z','p','X','c'], ['彭','阳','县']),
  (['a','x','W','t'], ['同','心','县']),
  (['b','T','W','e'], ['中','宁','县']),
  (['c','s','X','W'], ['平','罗','县']),
  (['c','H','X','F'], ['永','宁','县']),
  (['c','X','X','L'], ['贺','兰','县']),
  (['b','l','Y','O'], ['盐','池','县'])]

/-- lat_lon_data.cpp:49 -/
def row18 : Row := ⟨['宁','夏','回','族','自','治','区'], r18_0⟩

/-- part 0 of the places of lat_lon_data.cpp:50 -/
def r19_0 : List (List Char × List Char) := [
  (['a','b','S','l'], ['西','宁','市']),
  (['X','0','O','1'], ['玉','树','藏','族','自','治','州']),
  (['Y','T','R','E'], ['果','洛','藏','族','自','治','州']),
  (['a','H','R','b'], ['海','南','藏','族','自','治','州']),
  (['b','M','O','M'], ['海','西','蒙','古','族','藏','族','自','治','州']),
  (['a','U','T','7'], ['海','东','地','区']),
  (['Z','V','T','1'], ['黄','南','藏','族','自','治','州']),
  (['a','w','R','s'], ['海','北','藏','族','自','治','州']),
  (['a','b','S','m'], ['城','东','区']),
  (['a','b','S','l'], ['城','中','区']),
  (['a','P','L','s'], ['格','尔','木','市']),
  (['b','M','O','M'], ['德','令','哈','市']),
  (['a','b','S','k'], ['城','西','区']),
  (['a','e','S','k'], ['城','北','区']),
  (['W','s','M','I'], ['杂','多','县']),
  (['X','p','M','b'], ['治','多','县']),
  (['Y','8','M','m'], ['曲','麻','莱','县']),
  (['X','0','O','1'], ['玉','树','县']),
  (['X','M','O','6'], ['称','多','县']),
  (['W','C','N','T'], ['囊','谦','县']),
  (['X','j','Q','d'], ['达','日','县']),
  (['Y','T','R','E'], ['玛','沁','县']),
  (['X','w','Q','s'], ['甘','德','县']),
  (['Y','t','P','B'], ['玛','多','县']),
  (['Z','F','R','Y'], ['同','德','县']),
  (['Z','Z','Q','x'], ['兴','海','县']),
  (['a','H','R','b'], ['共','和','县']),
  (['b','I','Q','1'], ['天','峻','县']),
  (['a','I','P','5'], ['都','兰','县']),
  (['a','u','P','T'], ['乌','兰','县']),
  (['c','B','R','F'], ['祁','连','县']),
  (['b','K','R','8'], ['刚','察','县']),
  (['b','N','S','b'], ['门','源','回','族','自','治','县']),
  (['a','K','T','m'], ['民','和','回','族','土','族','自','治','县']),
  (['a','T','T','O'], ['乐','都','县']),
  (['a','6','T','G'], ['化','隆','回','族','自','治','县']),
  (['Z','u','T','2'], ['尖','扎','县']),
  (['a','U','T','7'], ['平','安','县']),
  (['a','o','S','v'], ['互','助','土','族','自','治','县']),
  (['a','U','S','Y'], ['湟','中','县'])]

/-- part 1 of the places of lat_lon_data.cpp:50 -/
def r19_1 : List (List Char × List Char) := [
  (['a','3','S','Q'], ['贵','德','县']),
  (['a','f','S','G'], ['湟','源','县']),
  (['Z','Z','R','j'], ['贵','南','县']),
  (['Z','V','T','1'], ['同','仁','县']),
  (['a','s','R','x'], ['海','晏','县']),
  (['Z','2','S','S'], ['泽','库','县']),
  (['Y','i','S','a'], ['河','南','蒙','古','族','自','治','县']),
  (['Z','p','T','T'], ['循','化','撒','拉','族','自','治','县']),
  (['X','Q','S','T'], ['久','治','县']),
  (['W','u','R','i'], ['班','玛','县']),
  (['a','u','S','f'], ['大','通','回','族','土','族','自','治','县'])]

/-- lat_lon_data.cpp:50 -/
def row19 : Row := ⟨['青','海','省'], r19_0 ++ (r19_1)⟩

/-- part 0 of the places of lat_lon_data.cpp:51 -/
def r20_0 : List (List Char × List Char) := [
  (['a','e','h','x'], ['济','南','市']),
  (['Z','E','g','S'], ['菏','泽','市']),
  (['a','R','g','x'], ['聊','城','市']),
  (['a','D','i','e'], ['莱','芜','市']),
  (['a','C','i','5'], ['泰','安','市']),
  (['Z','P','h','Z'], ['济','宁','市']),
  (['Y','n','i','J'], ['枣','庄','市']),
  (['Z','3','j','L'], ['临','沂','市']),
  (['Z','P','k','V'], ['日','照','市']),
  (['a','4','l','N'], ['青','岛','市']),
  (['a','g','k','9'], ['潍','坊','市']),
  (['a','n','j','3'], ['淄','博','市']),
  (['b','N','i','w'], ['滨','州','市']),
  (['b','Q','j','e'], ['东','营','市']),
  (['b','R','h','I'], ['德','州','市']),
  (['b','R','m','Q'], ['烟','台','市']),
  (['b','V','n','7'], ['威','海','市']),
  (['b','U','n','7'], ['环','翠','区']),
  (['Z','w','l','B'], ['黄','岛','区']),
  (['a','I','l','M'], ['城','阳','区']),
  (['a','9','l','Q'], ['李','沧','区']),
  (['a','6','l','S'], ['崂','山','区']),
  (['a','6','l','L'], ['四','方','区']),
  (['a','5','l','N'], ['市','北','区']),
  (['a','4','l','N'], ['市','南','区']),
  (['b','N','m','a'], ['牟','平','区']),
  (['b','U','m','F'], ['福','山','区']),
  (['b','U','m','Q'], ['莱','山','区']),
  (['b','W','m','N'], ['芝','罘','区']),
  (['a','e','k','A'], ['坊','子','区']),
  (['a','h','k','7'], ['奎','文','区']),
  (['a','h','k','6'], ['潍','城','区']),
  (['a','k','k','D'], ['寒','亭','区']),
  (['b','S','j','U'], ['东','营','区']),
  (['b','r','j','W'], ['河','口','区']),
  (['b','R','h','I'], ['德','城','区']),
  (['a','p','g','g'], ['临','清','市']),
  (['a','R','g','x'], ['东','昌','府','区']),
  (['a','X','h','i'], ['长','清','区']),
  (['a','d','h','u'], ['槐','荫','区'])]

/-- part 1 of the places of lat_lon_data.cpp:51 -/
def r20_1 : List (List Char × List Char) := [
  (['a','f','i','4'], ['历','城','区']),
  (['a','e','i','5'], ['历','下','区']),
  (['a','d','h','y'], ['市','中','区']),
  (['a','f','h','x'], ['天','桥','区']),
  (['a','4','i','m'], ['钢','城','区']),
  (['a','C','i','d'], ['莱','城','区']),
  (['b','N','j','0'], ['滨','城','区']),
  (['a','n','j','I'], ['临','淄','区']),
  (['a','m','i','q'], ['周','村','区']),
  (['a','n','j','2'], ['张','店','区']),
  (['a','U','i','p'], ['博','山','区']),
  (['a','B','h','y'], ['岱','岳','区']),
  (['a','B','i','8'], ['泰','山','区']),
  (['Z','F','g','Q'], ['牡','丹','区']),
  (['Z','P','h','Z'], ['任','城','区']),
  (['Z','O','h','Z'], ['市','中','区']),
  (['Y','Y','i','i'], ['台','儿','庄','区']),
  (['Y','m','i','F'], ['薛','城','区']),
  (['Y','k','i','Z'], ['峄','城','区']),
  (['Y','q','i','Y'], ['市','中','区']),
  (['Z','5','i','R'], ['山','亭','区']),
  (['Z','4','j','K'], ['兰','山','区']),
  (['Y','x','j','H'], ['罗','庄','区']),
  (['Z','5','j','O'], ['河','东','区']),
  (['Z','6','k','K'], ['岚','山','区']),
  (['Z','P','k','R'], ['东','港','区']),
  (['a','B','h','k'], ['肥','城','市']),
  (['a','u','h','c'], ['禹','城','市']),
  (['a','h','i','W'], ['章','丘','市']),
  (['Z','Z','h','x'], ['曲','阜','市']),
  (['Z','X','h','o'], ['兖','州','市']),
  (['Z','O','h','w'], ['邹','城','市']),
  (['Z','5','i','9'], ['滕','州','市']),
  (['Z','y','k','O'], ['诸','城','市']),
  (['a','Q','k','C'], ['安','丘','市']),
  (['a','N','k','j'], ['高','密','市']),
  (['Z','q','l','2'], ['胶','南','市']),
  (['a','N','l','R'], ['即','墨','市']),
  (['a','G','l','2'], ['胶','州','市']),
  (['a','l','k','v'], ['平','度','市'])]

/-- part 2 of the places of lat_lon_data.cpp:51 -/
def r20_2 : List (List Char × List Char) := [
  (['b','B','k','u'], ['莱','州','市']),
  (['a','q','k','O'], ['昌','邑','市']),
  (['a','r','j','i'], ['寿','光','市']),
  (['a','f','j','S'], ['青','州','市']),
  (['Z','t','i','k'], ['新','泰','市']),
  (['b','M','l','O'], ['招','远','市']),
  (['b','i','i','E'], ['乐','陵','市']),
  (['b','n','l','j'], ['蓬','莱','市']),
  (['b','d','l','V'], ['龙','口','市']),
  (['b','I','l','o'], ['栖','霞','市']),
  (['b','A','n','P'], ['荣','成','市']),
  (['b','C','n','3'], ['文','登','市']),
  (['a','t','m','W'], ['乳','山','市']),
  (['a','l','m','9'], ['海','阳','市']),
  (['a','q','l','U'], ['莱','西','市']),
  (['a','x','l','g'], ['莱','阳','市']),
  (['Z','4','g','Y'], ['定','陶','县']),
  (['Y','o','g','W'], ['曹','县']),
  (['Y','m','h','5'], ['单','县']),
  (['Z','O','h','5'], ['巨','野','县']),
  (['Y','v','g','r'], ['成','武','县']),
  (['Z','a','g','u'], ['郓','城','县']),
  (['Z','m','h','5'], ['梁','山','县']),
  (['Z','Y','g','U'], ['鄄','城','县']),
  (['Z','H','g','5'], ['东','明','县']),
  (['a','T','g','Q'], ['冠','县']),
  (['a','v','g','y'], ['夏','津','县']),
  (['b','D','h','4'], ['武','城','县']),
  (['a','q','h','E'], ['高','唐','县']),
  (['a','Z','h','F'], ['茌','平','县']),
  (['a','K','h','F'], ['东','阿','县']),
  (['a','7','g','l'], ['阳','谷','县']),
  (['a','E','g','e'], ['莘','县']),
  (['Z','u','h','S'], ['东','平','县']),
  (['a','H','h','R'], ['平','阴','县']),
  (['a','m','h','j'], ['齐','河','县']),
  (['b','A','h','Q'], ['平','原','县']),
  (['b','B','h','q'], ['临','邑','县']),
  (['a','x','i','D'], ['济','阳','县']),
  (['Z','U','i','c'], ['平','邑','县'])]

/-- part 3 of the places of lat_lon_data.cpp:51 -/
def r20_3 : List (List Char × List Char) := [
  (['Z','e','i','G'], ['泗','水','县']),
  (['Z','k','h','m'], ['宁','阳','县']),
  (['Z','i','h','T'], ['汶','上','县']),
  (['Z','P','h','K'], ['嘉','祥','县']),
  (['Z','4','h','I'], ['金','乡','县']),
  (['Y','y','h','d'], ['鱼','台','县']),
  (['Y','n','i','8'], ['微','山','县']),
  (['Y','b','j','L'], ['郯','城','县']),
  (['Y','p','j','3'], ['苍','山','县']),
  (['Z','G','i','w'], ['费','县']),
  (['Z','h','i','u'], ['蒙','阴','县']),
  (['Z','B','j','o'], ['莒','南','县']),
  (['Z','Z','j','o'], ['莒','县']),
  (['Z','X','j','S'], ['沂','南','县']),
  (['Z','l','j','b'], ['沂','水','县']),
  (['Y','t','j','d'], ['临','沭','县']),
  (['Z','j','k','C'], ['五','莲','县']),
  (['b','4','j','O'], ['广','饶','县']),
  (['a','g','j','n'], ['昌','乐','县']),
  (['a','V','j','W'], ['临','朐','县']),
  (['a','B','j','A'], ['沂','源','县']),
  (['a','w','j','5'], ['桓','台','县']),
  (['b','9','j','8'], ['博','兴','县']),
  (['b','A','i','n'], ['高','青','县']),
  (['a','r','i','i'], ['邹','平','县']),
  (['b','g','j','8'], ['沾','化','县']),
  (['b','Z','j','X'], ['垦','利','县']),
  (['b','T','j','F'], ['利','津','县']),
  (['b','i','i','a'], ['无','棣','县']),
  (['b','c','i','Z'], ['阳','信','县']),
  (['b','T','i','U'], ['惠','民','县']),
  (['b','J','i','9'], ['商','河','县']),
  (['b','l','i','N'], ['庆','云','县']),
  (['b','d','h','l'], ['宁','津','县']),
  (['b','K','h','Y'], ['陵','县']),
  (['b','t','l','i'], ['长','岛','县'])]

/-- lat_lon_data.cpp:51 -/
def row20 : Row := ⟨['山','东','省'], r20_0 ++ (r20_1 ++ (r20_2 ++ (r20_3)))⟩

/-- part 0 of the places of lat_lon_data.cpp:52 -/
def r21_0 : List (List Char × List Char) := [
  (['b','q','d','X'], ['太','原','市']),
  (['Z','1','b','x'], ['运','城','市']),
  (['a','5','c','V'], ['临','汾','市']),
  (['Z','U','d','o'], ['晋','城','市']),
  (['a','C','e','7'], ['长','治','市']),
  (['b','p','e','Y'], ['阳','泉','市']),
  (['e','5','e','I'], ['大','同','市']),
  (['d','K','d','Q'], ['朔','州','市']),
  (['c','P','d','i'], ['忻','州','市']),
  (['b','f','d','j'], ['晋','中','市']),
  (['b','V','c','8'], ['吕','梁','市']),
  (['e','0','e','8'], ['南','郊','区']),
  (['e','G','e','9'], ['新','荣','区']),
  (['e','2','e','A'], ['矿','区']),
  (['e','5','e','H'], ['城','区']),
  (['d','K','d','Q'], ['朔','城','区']),
  (['c','P','d','i'], ['忻','府','区']),
  (['b','u','e','Z'], ['郊','区']),
  (['b','q','e','Y'], ['矿','区']),
  (['b','p','e','a'], ['城','区']),
  (['b','V','c','8'], ['离','石','区']),
  (['b','i','d','T'], ['晋','源','区']),
  (['b','i','d','Y'], ['小','店','区']),
  (['b','u','d','T'], ['尖','草','坪','区']),
  (['b','q','d','V'], ['万','柏','林','区']),
  (['b','q','d','Y'], ['迎','泽','区']),
  (['b','r','d','Y'], ['杏','花','岭','区']),
  (['a','C','e','7'], ['郊','区']),
  (['a','D','e','7'], ['城','区']),
  (['Z','U','d','o'], ['城','区']),
  (['a','5','c','V'], ['尧','都','区']),
  (['Z','1','b','x'], ['盐','湖','区']),
  (['Y','q','b','Q'], ['永','济','市']),
  (['Z','b','c','L'], ['侯','马','市']),
  (['Z','a','b','g'], ['河','津','市']),
  (['a','Y','c','h'], ['霍','州','市']),
  (['b','2','c','t'], ['介','休','市']),
  (['b','9','c','k'], ['孝','义','市']),
  (['b','G','c','l'], ['汾','阳','市']),
  (['Z','m','d','t'], ['高','平','市'])]

/-- part 1 of the places of lat_lon_data.cpp:52 -/
def r21_1 : List (List Char × List Char) := [
  (['a','K','e','D'], ['潞','城','市']),
  (['c','i','d','g'], ['原','平','市']),
  (['b','t','d','A'], ['古','交','市']),
  (['b','f','d','j'], ['榆','次','区']),
  (['Z','9','b','k'], ['临','猗','县']),
  (['Y','g','b','f'], ['芮','城','县']),
  (['Y','o','c','D'], ['平','陆','县']),
  (['Z','9','c','D'], ['夏','县']),
  (['Z','a','b','w'], ['稷','山','县']),
  (['Z','b','c','D'], ['新','绛','县']),
  (['Z','L','c','D'], ['闻','喜','县']),
  (['Z','T','c','Y'], ['绛','县']),
  (['Z','c','c','S'], ['曲','沃','县']),
  (['Z','r','c','Q'], ['襄','汾','县']),
  (['Z','w','b','o'], ['乡','宁','县']),
  (['Z','P','b','o'], ['万','荣','县']),
  (['a','6','b','f'], ['吉','县']),
  (['a','S','b','j'], ['大','宁','县']),
  (['a','P','c','5'], ['蒲','县']),
  (['a','g','b','u'], ['隰','县']),
  (['a','y','b','o'], ['石','楼','县']),
  (['a','k','b','c'], ['永','和','县']),
  (['a','w','c','C'], ['交','口','县']),
  (['b','K','c','B'], ['中','阳','县']),
  (['a','d','c','Y'], ['汾','西','县']),
  (['a','F','c','e'], ['洪','洞','县']),
  (['a','G','c','t'], ['古','县']),
  (['a','9','d','F'], ['安','泽','县']),
  (['a','U','d','K'], ['沁','源','县']),
  (['a','p','c','k'], ['灵','石','县']),
  (['b','B','d','A'], ['平','遥','县']),
  (['a','j','d','g'], ['沁','县']),
  (['b','L','d','K'], ['祁','县']),
  (['b','4','d','w'], ['榆','社','县']),
  (['a','o','d','p'], ['武','乡','县']),
  (['a','W','e','3'], ['襄','垣','县']),
  (['a','J','d','r'], ['屯','留','县']),
  (['a','3','e','2'], ['长','治','县']),
  (['Z','U','d','o'], ['泽','州','县']),
  (['Z','T','d','P'], ['阳','城','县'])]

/-- part 2 of the places of lat_lon_data.cpp:52 -/
def r21_2 : List (List Char × List Char) := [
  (['a','7','d','q'], ['长','子','县']),
  (['Z','f','d','B'], ['沁','水','县']),
  (['Z','w','c','o'], ['浮','山','县']),
  (['Z','i','c','h'], ['翼','城','县']),
  (['Z','I','c','e'], ['垣','曲','县']),
  (['Z','l','e','G'], ['陵','川','县']),
  (['a','C','e','Q'], ['平','顺','县']),
  (['a','7','e','C'], ['壶','关','县']),
  (['a','U','e','N'], ['黎','城','县']),
  (['b','K','e','Y'], ['和','顺','县']),
  (['b','4','e','M'], ['左','权','县']),
  (['b','m','e','b'], ['平','定','县']),
  (['b','b','e','g'], ['昔','阳','县']),
  (['b','r','e','B'], ['寿','阳','县']),
  (['c','i','e','F'], ['五','台','县']),
  (['c','5','e','O'], ['盂','县']),
  (['d','k','f','H'], ['广','灵','县']),
  (['d','g','e','f'], ['浑','源','县']),
  (['d','Q','f','E'], ['灵','丘','县']),
  (['d','B','e','F'], ['繁','峙','县']),
  (['d','X','e','B'], ['应','县']),
  (['d','o','e','5'], ['怀','仁','县']),
  (['e','2','e','a'], ['大','同','县']),
  (['d','V','d','n'], ['山','阴','县']),
  (['e','0','d','g'], ['左','云','县']),
  (['d','x','d','S'], ['右','玉','县']),
  (['d','5','d','C'], ['神','池','县']),
  (['c','s','c','p'], ['五','寨','县']),
  (['d','0','d','I'], ['宁','武','县']),
  (['d','4','d','v'], ['代','县']),
  (['c','T','d','v'], ['定','襄','县']),
  (['b','P','d','X'], ['太','谷','县']),
  (['c','4','d','e'], ['阳','曲','县']),
  (['b','a','d','L'], ['清','徐','县']),
  (['b','X','d','9'], ['交','城','县']),
  (['b','Q','d','1'], ['文','水','县']),
  (['c','4','c','l'], ['娄','烦','县']),
  (['c','H','c','e'], ['岚','县']),
  (['c','M','c','u'], ['静','乐','县']),
  (['c','g','c','Y'], ['岢','岚','县'])]

/-- part 3 of the places of lat_lon_data.cpp:52 -/
def r21_3 : List (List Char × List Char) := [
  (['c','S','c','7'], ['兴','县']),
  (['b','r','c','E'], ['方','山','县']),
  (['b','v','b','x'], ['临','县']),
  (['e','M','e','j'], ['阳','高','县']),
  (['e','P','f','5'], ['天','镇','县']),
  (['b','Q','b','s'], ['柳','林','县']),
  (['d','Q','c','U'], ['偏','关','县']),
  (['d','N','c','8'], ['河','曲','县'])]

/-- lat_lon_data.cpp:52 -/
def row21 : Row := ⟨['山','西','省'], r21_0 ++ (r21_1 ++ (r21_2 ++ (r21_3)))⟩

/-- part 0 of the places of lat_lon_data.cpp:53 -/
def r22_0 : List (List Char × List Char) := [
  (['Y','G','Z','u'], ['西','安','市']),
  (['Y','M','Y','8'], ['宝','鸡','市']),
  (['X','4','Y','1'], ['汉','中','市']),
  (['W','f','a','1'], ['安','康','市']),
  (['X','q','a','u'], ['商','洛','市']),
  (['Y','U','a','U'], ['渭','南','市']),
  (['Y','K','Z','g'], ['咸','阳','市']),
  (['Y','s','Z','u'], ['铜','川','市']),
  (['a','a','a','T'], ['延','安','市']),
  (['c','H','a','i'], ['榆','林','市']),
  (['Y','M','Y','M'], ['陈','仓','区']),
  (['Y','N','Y','8'], ['金','台','区']),
  (['Y','M','Y','9'], ['渭','滨','区']),
  (['X','4','Y','2'], ['汉','台','区']),
  (['W','f','a','1'], ['汉','滨','区']),
  (['X','q','a','u'], ['商','州','区']),
  (['Y','d','a','E'], ['阎','良','区']),
  (['Y','H','Z','u'], ['未','央','区']),
  (['Y','G','Z','u'], ['莲','湖','区']),
  (['Y','G','Z','v'], ['新','城','区']),
  (['Y','E','Z','u'], ['碑','林','区']),
  (['Y','D','Z','v'], ['雁','塔','区']),
  (['Y','A','Z','u'], ['长','安','区']),
  (['Y','G','a','4'], ['灞','桥','区']),
  (['Y','M','a','D'], ['临','潼','区']),
  (['Y','L','Z','h'], ['秦','都','区']),
  (['Y','K','Z','i'], ['渭','城','区']),
  (['Y','H','Z','4'], ['杨','凌','区']),
  (['Z','6','a','6'], ['印','台','区']),
  (['Z','4','a','4'], ['王','益','区']),
  (['Y','t','Z','x'], ['耀','州','区']),
  (['Y','U','a','T'], ['临','渭','区']),
  (['a','a','a','T'], ['宝','塔','区']),
  (['c','H','a','j'], ['榆','阳','区']),
  (['Y','I','Z','T'], ['兴','平','市']),
  (['Y','Y','b','5'], ['华','阴','市']),
  (['Z','T','b','Q'], ['韩','城','市']),
  (['X','9','X','e'], ['勉','县']),
  (['W','o','X','F'], ['宁','强','县']),
  (['X','K','X','9'], ['略','阳','县'])]

/-- part 1 of the places of lat_lon_data.cpp:53 -/
def r22_1 : List (List Char × List Char) := [
  (['X','t','X','V'], ['凤','县']),
  (['X','D','Y','X'], ['洋','县']),
  (['X','b','X','t'], ['留','坝','县']),
  (['Y','V','Y','N'], ['凤','翔','县']),
  (['Y','4','Y','J'], ['太','白','县']),
  (['Y','H','Y','j'], ['眉','县']),
  (['Y','M','Y','q'], ['扶','风','县']),
  (['Y','R','Y','b'], ['岐','山','县']),
  (['Y','W','Z','E'], ['乾','县']),
  (['Y','G','Z','C'], ['武','功','县']),
  (['Y','A','Z','C'], ['周','至','县']),
  (['X','W','Y','x'], ['佛','坪','县']),
  (['X','3','Z','F'], ['石','泉','县']),
  (['W','W','Y','s'], ['镇','巴','县']),
  (['W','x','Y','k'], ['西','乡','县']),
  (['X','9','Y','K'], ['城','固','县']),
  (['X','0','X','u'], ['南','郑','县']),
  (['W','V','Z','W'], ['紫','阳','县']),
  (['W','J','Z','s'], ['岚','皋','县']),
  (['W','s','Z','U'], ['汉','阴','县']),
  (['W','o','a','N'], ['旬','阳','县']),
  (['W','O','a','L'], ['平','利','县']),
  (['V','r','a','V'], ['镇','坪','县']),
  (['W','n','b','6'], ['白','河','县']),
  (['X','W','a','r'], ['山','阳','县']),
  (['X','g','b','K'], ['丹','凤','县']),
  (['X','W','b','r'], ['商','南','县']),
  (['Y','X','b','E'], ['潼','关','县']),
  (['Y','5','b','8'], ['洛','南','县']),
  (['Y','V','a','k'], ['华','县']),
  (['Y','W','a','5'], ['高','陵','县']),
  (['Y','9','a','J'], ['蓝','田','县']),
  (['X','f','a','6'], ['柞','水','县']),
  (['X','Q','a','9'], ['镇','安','县']),
  (['X','J','Z','J'], ['宁','陕','县']),
  (['Y','6','Z','a'], ['户','县']),
  (['Y','W','Z','o'], ['泾','阳','县']),
  (['Y','b','Z','u'], ['三','原','县']),
  (['Y','T','Z','P'], ['礼','泉','县']),
  (['Y','l','Z','Z'], ['淳','化','县'])]

/-- part 2 of the places of lat_lon_data.cpp:53 -/
def r22_2 : List (List Char × List Char) := [
  (['Z','7','Z','K'], ['旬','邑','县']),
  (['Z','Z','a','F'], ['黄','陵','县']),
  (['Z','O','a','7'], ['宜','君','县']),
  (['Z','k','a','Q'], ['洛','川','县']),
  (['Y','j','a','B'], ['富','平','县']),
  (['Y','m','a','u'], ['大','荔','县']),
  (['Z','B','a','Z'], ['白','水','县']),
  (['Y','v','a','Z'], ['蒲','城','县']),
  (['Z','E','b','9'], ['合','阳','县']),
  (['Z','B','a','u'], ['澄','城','县']),
  (['Z','Z','a','o'], ['黄','龙','县']),
  (['a','Z','b','0'], ['延','长','县']),
  (['a','3','b','A'], ['宜','川','县']),
  (['b','5','b','7'], ['清','涧','县']),
  (['a','r','b','B'], ['延','川','县']),
  (['b','8','a','e'], ['子','长','县']),
  (['a','q','a','J'], ['安','塞','县']),
  (['Z','x','a','M'], ['富','县']),
  (['a','H','a','L'], ['甘','泉','县']),
  (['a','n','Z','k'], ['志','丹','县']),
  (['a','u','Z','A'], ['吴','起','县']),
  (['Z','2','Z','5'], ['彬','县']),
  (['Y','g','Z','8'], ['永','寿','县']),
  (['Y','f','Y','l'], ['麟','游','县']),
  (['Z','C','Y','l'], ['长','武','县']),
  (['Y','d','Y','8'], ['千','阳','县']),
  (['Y','s','X','p'], ['陇','县']),
  (['b','Z','Y','a'], ['定','边','县']),
  (['d','2','c','4'], ['府','谷','县']),
  (['d','1','c','5'], ['保','德','县']),
  (['c','o','b','U'], ['神','木','县']),
  (['b','v','a','H'], ['横','山','县']),
  (['b','a','Z','m'], ['靖','边','县']),
  (['b','b','b','2'], ['子','洲','县']),
  (['b','U','b','F'], ['绥','德','县']),
  (['b','j','b','B'], ['米','脂','县']),
  (['b','R','b','i'], ['吴','堡','县']),
  (['c','1','b','T'], ['佳','县'])]

/-- lat_lon_data.cpp:53 -/
def row22 : Row := ⟨['陕','西','省'], r22_0 ++ (r22_1 ++ (r22_2))⟩

/-- part 0 of the places of lat_lon_data.cpp:54 -/
def r23_0 : List (List Char × List Char) := [
  (['V','E','m','S'], ['上','海','市']),
  (['U','j','m','K'], ['金','山','区']),
  (['U','t','m','S'], ['奉','贤','区']),
  (['V','2','m','D'], ['松','江','区']),
  (['V','7','m','N'], ['闵','行','区']),
  (['V','B','m','Q'], ['徐','汇','区']),
  (['V','D','m','P'], ['长','宁','区']),
  (['V','F','m','R'], ['闸','北','区']),
  (['V','E','m','T'], ['黄','浦','区']),
  (['V','D','m','S'], ['卢','湾','区']),
  (['V','E','m','R'], ['静','安','区']),
  (['V','D','m','W'], ['浦','东','新','区']),
  (['V','G','m','V'], ['杨','浦','区']),
  (['V','G','m','U'], ['虹','口','区']),
  (['V','F','m','O'], ['普','陀','区']),
  (['V','9','m','7'], ['青','浦','区']),
  (['V','N','m','G'], ['嘉','定','区']),
  (['V','O','m','T'], ['宝','山','区']),
  (['V','3','m','j'], ['南','汇','区']),
  (['V','b','m','O'], ['崇','明','县'])]

/-- lat_lon_data.cpp:54 -/
def row23 : Row := ⟨['上','海','市'], r23_0⟩

/-- part 0 of the places of lat_lon_data.cpp:55 -/
def r24_0 : List (List Char × List Char) := [
  (['U','e','V','4'], ['成','都','市']),
  (['Q','Z','S','h'], ['攀','枝','花','市']),
  (['R','s','T','G'], ['凉','山','彝','族','自','治','州']),
  (['U','3','S','w'], ['甘','孜','藏','族','自','治','州']),
  (['V','s','T','D'], ['阿','坝','藏','族','羌','族','自','治','州']),
  (['W','Q','W','o'], ['广','元','市']),
  (['V','p','X','k'], ['巴','中','市']),
  (['V','D','Y','U'], ['达','州','市']),
  (['U','l','X','5'], ['南','充','市']),
  (['U','S','X','c'], ['广','安','市']),
  (['U','V','W','Y'], ['遂','宁','市']),
  (['V','S','V','i'], ['绵','阳','市']),
  (['V','8','V','N'], ['德','阳','市']),
  (['U','3','U','o'], ['眉','山','市']),
  (['T','x','T','y'], ['雅','安','市']),
  (['T','Y','U','k'], ['乐','山','市']),
  (['T','L','V','l'], ['自','贡','市']),
  (['T','Z','W','3'], ['内','江','市']),
  (['U','7','V','d'], ['资','阳','市']),
  (['S','q','W','Q'], ['泸','州','市']),
  (['S','k','V','b'], ['宜','宾','市']),
  (['U','7','V','d'], ['雁','江','区']),
  (['T','Z','W','3'], ['市','中','区']),
  (['T','a','W','4'], ['东','兴','区']),
  (['T','L','V','h'], ['贡','井','区']),
  (['T','L','V','k'], ['自','流','井','区']),
  (['T','M','V','k'], ['大','安','区']),
  (['T','G','V','q'], ['沿','滩','区']),
  (['S','k','W','M'], ['纳','溪','区']),
  (['S','s','W','Q'], ['龙','马','潭','区']),
  (['S','r','W','R'], ['江','阳','区']),
  (['S','k','V','b'], ['翠','屏','区']),
  (['T','P','U','X'], ['沙','湾','区']),
  (['T','O','U','n'], ['五','通','桥','区']),
  (['T','Y','U','k'], ['市','中','区']),
  (['T','F','U','5'], ['金','口','河','区']),
  (['U','3','U','o'], ['东','坡','区']),
  (['T','x','T','y'], ['雨','城','区']),
  (['U','r','V','E'], ['青','白','江','区']),
  (['U','o','V','9'], ['新','都','区'])]

/-- part 1 of the places of lat_lon_data.cpp:55 -/
def r24_1 : List (List Char × List Char) := [
  (['U','Y','V','G'], ['龙','泉','驿','区']),
  (['U','e','V','6'], ['成','华','区']),
  (['U','e','V','5'], ['锦','江','区']),
  (['U','g','V','3'], ['金','牛','区']),
  (['U','f','V','3'], ['青','羊','区']),
  (['U','d','V','3'], ['武','侯','区']),
  (['U','g','U','o'], ['温','江','区']),
  (['V','8','V','N'], ['旌','阳','区']),
  (['U','V','W','Y'], ['船','山','区']),
  (['U','L','W','R'], ['安','居','区']),
  (['V','p','X','k'], ['巴','州','区']),
  (['V','D','Y','T'], ['通','川','区']),
  (['U','k','X','3'], ['嘉','陵','区']),
  (['U','k','X','6'], ['高','坪','区']),
  (['U','l','X','5'], ['顺','庆','区']),
  (['W','d','W','r'], ['朝','天','区']),
  (['W','Q','W','o'], ['利','州','区']),
  (['W','J','W','w'], ['元','坝','区']),
  (['V','S','V','j'], ['游','仙','区']),
  (['V','S','V','i'], ['涪','城','区']),
  (['Q','a','S','a'], ['西','区']),
  (['Q','U','S','i'], ['仁','和','区']),
  (['Q','X','S','g'], ['东','区']),
  (['R','s','T','G'], ['西','昌','市']),
  (['V','l','V','j'], ['江','油','市']),
  (['W','4','Z','2'], ['万','源','市']),
  (['U','N','X','k'], ['华','蓥','市']),
  (['V','X','W','y'], ['阆','中','市']),
  (['U','O','V','X'], ['简','阳','市']),
  (['V','L','V','C'], ['绵','竹','市']),
  (['V','8','V','A'], ['什','邡','市']),
  (['V','0','U','b'], ['都','江','堰','市']),
  (['U','P','U','S'], ['邛','崃','市']),
  (['U','c','U','e'], ['崇','州','市']),
  (['U','x','U','u'], ['彭','州','市']),
  (['U','x','V','H'], ['广','汉','市']),
  (['T','a','U','T'], ['峨','眉','山','市']),
  (['S','o','V','K'], ['屏','山','县']),
  (['W','Z','W','E'], ['青','川','县']),
  (['S','h','Q','H'], ['得','荣','县'])]

/-- part 2 of the places of lat_lon_data.cpp:55 -/
def r24_2 : List (List Char × List Char) := [
  (['R','Q','S','U'], ['盐','源','县']),
  (['Q','g','S','p'], ['盐','边','县']),
  (['Q','e','T','F'], ['会','理','县']),
  (['Q','c','T','Z'], ['会','东','县']),
  (['R','4','T','k'], ['宁','南','县']),
  (['R','N','T','W'], ['普','格','县']),
  (['R','O','T','B'], ['德','昌','县']),
  (['Q','r','T','7'], ['米','易','县']),
  (['R','h','T','n'], ['布','拖','县']),
  (['S','1','T','p'], ['昭','觉','县']),
  (['S','J','T','P'], ['喜','德','县']),
  (['S','d','T','V'], ['越','西','县']),
  (['S','X','T','A'], ['冕','宁','县']),
  (['T','0','S','U'], ['九','龙','县']),
  (['R','u','S','H'], ['木','里','藏','族','自','治','县']),
  (['T','2','R','I'], ['稻','城','县']),
  (['T','y','R','G'], ['理','塘','县']),
  (['U','2','S','1'], ['雅','江','县']),
  (['U','3','S','w'], ['康','定','县']),
  (['T','E','T','M'], ['石','棉','县']),
  (['S','w','T','k'], ['甘','洛','县']),
  (['T','L','T','d'], ['汉','源','县']),
  (['U','4','T','j'], ['天','全','县']),
  (['T','m','T','p'], ['荥','经','县']),
  (['U','9','T','t'], ['芦','山','县']),
  (['T','t','T','E'], ['泸','定','县']),
  (['U','r','S','r'], ['丹','巴','县']),
  (['V','0','T','M'], ['小','金','县']),
  (['U','M','T','n'], ['宝','兴','县']),
  (['V','T','T','4'], ['金','川','县']),
  (['U','x','S','7'], ['道','孚','县']),
  (['U','v','R','J'], ['新','龙','县']),
  (['V','O','R','f'], ['炉','霍','县']),
  (['V','b','Q','x'], ['甘','孜','县']),
  (['V','n','P','Z'], ['德','格','县']),
  (['V','D','P','o'], ['白','玉','县']),
  (['U','0','Q','6'], ['巴','塘','县']),
  (['S','u','Q','m'], ['乡','城','县']),
  (['W','x','P','6'], ['石','渠','县']),
  (['X','Z','T','v'], ['若','尔','盖','县'])]

/-- part 3 of the places of lat_lon_data.cpp:55 -/
def r24_3 : List (List Char × List Char) := [
  (['W','s','S','g'], ['阿','坝','县']),
  (['W','G','R','K'], ['色','达','县']),
  (['W','G','R','x'], ['壤','塘','县']),
  (['W','m','T','X'], ['红','原','县']),
  (['V','s','T','D'], ['马','尔','康','县']),
  (['W','4','T','x'], ['黑','水','县']),
  (['W','c','U','a'], ['松','潘','县']),
  (['V','n','V','R'], ['北','川','羌','族','自','治','县']),
  (['W','P','V','W'], ['平','武','县']),
  (['W','H','W','V'], ['剑','阁','县']),
  (['X','G','V','E'], ['九','寨','沟','县']),
  (['W','E','X','H'], ['旺','苍','县']),
  (['V','i','W','u'], ['苍','溪','县']),
  (['W','L','X','o'], ['南','江','县']),
  (['V','t','Y','E'], ['通','江','县']),
  (['V','C','Y','U'], ['达','县']),
  (['V','L','Y','h'], ['宣','汉','县']),
  (['V','5','Y','q'], ['开','江','县']),
  (['U','y','W','r'], ['西','充','县']),
  (['U','X','X','Q'], ['岳','池','县']),
  (['U','L','X','H'], ['武','胜','县']),
  (['U','K','X','u'], ['邻','水','县']),
  (['U','i','Y','C'], ['大','竹','县']),
  (['U','o','X','w'], ['渠','县']),
  (['V','5','X','Y'], ['营','山','县']),
  (['V','Y','Y','6'], ['平','昌','县']),
  (['V','2','X','P'], ['蓬','安','县']),
  (['V','G','X','H'], ['仪','陇','县']),
  (['V','L','X','4'], ['南','部','县']),
  (['V','c','W','A'], ['梓','潼','县']),
  (['V','D','W','N'], ['盐','亭','县']),
  (['U','l','W','h'], ['蓬','溪','县']),
  (['U','Z','W','F'], ['大','英','县']),
  (['U','q','W','N'], ['射','洪','县']),
  (['U','p','V','Q'], ['金','堂','县']),
  (['V','J','V','U'], ['罗','江','县']),
  (['V','2','V','f'], ['中','江','县']),
  (['V','6','W','5'], ['三','台','县']),
  (['V','W','V','Y'], ['安','县']),
  (['V','f','U','p'], ['茂','县'])]

/-- part 4 of the places of lat_lon_data.cpp:55 -/
def r24_4 : List (List Char × List Char) := [
  (['V','T','U','Z'], ['汶','川','县']),
  (['V','Q','U','A'], ['理','县']),
  (['U','Z','U','V'], ['大','邑','县']),
  (['U','P','U','n'], ['新','津','县']),
  (['U','Z','U','t'], ['双','流','县']),
  (['U','n','U','r'], ['郫','县']),
  (['T','y','V','9'], ['仁','寿','县']),
  (['T','d','V','4'], ['井','研','县']),
  (['T','o','U','p'], ['青','神','县']),
  (['U','C','U','q'], ['彭','山','县']),
  (['U','C','U','U'], ['蒲','江','县']),
  (['U','5','U','7'], ['名','山','县']),
  (['T','t','U','M'], ['洪','雅','县']),
  (['U','1','U','V'], ['丹','棱','县']),
  (['T','i','U','Y'], ['夹','江','县']),
  (['T','E','U','G'], ['峨','边','彝','族','自','治','县']),
  (['S','w','U','s'], ['沐','川','县']),
  (['T','D','U','v'], ['犍','为','县']),
  (['T','B','V','x'], ['富','顺','县']),
  (['T','W','V','e'], ['威','远','县']),
  (['T','S','V','P'], ['荣','县']),
  (['T','l','V','p'], ['资','中','县']),
  (['U','H','W','1'], ['乐','至','县']),
  (['U','6','W','K'], ['安','岳','县']),
  (['T','9','W','N'], ['泸','县']),
  (['T','L','W','H'], ['隆','昌','县']),
  (['S','I','W','E'], ['兴','文','县']),
  (['S','A','W','Q'], ['叙','永','县']),
  (['S','A','V','V'], ['筠','连','县']),
  (['S','Q','V','V'], ['高','县']),
  (['S','R','V','h'], ['珙','县']),
  (['S','Z','V','t'], ['长','宁','县']),
  (['S','i','W','4'], ['江','安','县']),
  (['S','p','V','x'], ['南','溪','县']),
  (['S','g','V','X'], ['宜','宾','县']),
  (['S','3','W','n'], ['古','蔺','县']),
  (['S','n','W','o'], ['合','江','县']),
  (['S','K','U','8'], ['美','姑','县']),
  (['S','G','U','Y'], ['雷','波','县']),
  (['R','g','U','F'], ['金','阳','县'])]

/-- part 5 of the places of lat_lon_data.cpp:55 -/
def r24_5 : List (List Char × List Char) := [
  (['S','o','U','X'], ['马','边','彝','族','自','治','县'])]

/-- lat_lon_data.cpp:55 -/
def row24 : Row := ⟨['四','川','省'], r24_0 ++ (r24_1 ++ (r24_2 ++ (r24_3 ++ (r24_4 ++ (r24_5)))))⟩

/-- part 0 of the places of lat_lon_data.cpp:56 -/
def r25_0 : List (List Char × List Char) := [
  (['d','7','i','C'], ['天','津','市']),
  (['d','2','i','f'], ['滨','海','新','区']),
  (['d','8','i','0'], ['西','青','区']),
  (['d','7','i','D'], ['河','西','区']),
  (['d','8','i','9'], ['南','开','区']),
  (['d','A','i','9'], ['红','桥','区']),
  (['d','D','i','8'], ['北','辰','区']),
  (['d','9','i','B'], ['河','北','区']),
  (['d','7','i','C'], ['和','平','区']),
  (['d','7','i','D'], ['河','东','区']),
  (['d','5','i','I'], ['东','丽','区']),
  (['c','x','i','N'], ['津','南','区']),
  (['c','o','i','R'], ['大','港','区']),
  (['d','F','i','m'], ['汉','沽','区']),
  (['d','1','i','d'], ['塘','沽','区']),
  (['d','h','i','I'], ['宝','坻','区']),
  (['d','N','i','2'], ['武','清','区']),
  (['c','u','h','t'], ['静','海','县']),
  (['d','K','i','n'], ['宁','河','县']),
  (['e','3','i','O'], ['蓟','县'])]

/-- lat_lon_data.cpp:56 -/
def row25 : Row := ⟨['天','津','市'], r25_0⟩

/-- part 0 of the places of lat_lon_data.cpp:57 -/
def r26_0 : List (List Char × List Char) := [
  (['T','d','I','8'], ['拉','萨','市']),
  (['W','U','7','6'], ['阿','里','地','区']),
  (['T','G','F','r'], ['日','喀','则','地','区']),
  (['T','f','L','M'], ['林','芝','地','区']),
  (['V','T','J','4'], ['那','曲','地','区']),
  (['T','E','I','k'], ['山','南','地','区']),
  (['V','8','O','B'], ['昌','都','地','区']),
  (['X','C','F','o'], ['双','湖','特','别','区']),
  (['T','G','F','r'], ['日','喀','则','市']),
  (['T','d','I','8'], ['城','关','区']),
  (['V','T','6','m'], ['札','达','县']),
  (['W','O','8','7'], ['革','吉','县']),
  (['U','I','8','A'], ['普','兰','县']),
  (['T','K','C','E'], ['萨','嘎','县']),
  (['S','p','C','I'], ['吉','隆','县']),
  (['S','A','C','x'], ['聂','拉','木','县']),
  (['R','T','F','s'], ['亚','东','县']),
  (['T','7','G','G'], ['白','朗','县']),
  (['S','t','G','a'], ['江','孜','县']),
  (['T','f','G','6'], ['南','木','林','县']),
  (['T','Q','F','G'], ['谢','通','门','县']),
  (['T','5','E','c'], ['拉','孜','县']),
  (['S','s','F','1'], ['萨','迦','县']),
  (['S','H','F','V'], ['岗','巴','县']),
  (['S','M','E','k'], ['定','结','县']),
  (['S','e','E','7'], ['定','日','县']),
  (['T','I','E','E'], ['昂','仁','县']),
  (['U','u','F','g'], ['申','扎','县']),
  (['V','l','E','E'], ['尼','玛','县']),
  (['V','1','C','A'], ['措','勤','县']),
  (['T','k','B','2'], ['仲','巴','县']),
  (['W','I','B','4'], ['改','则','县']),
  (['W','U','7','6'], ['噶','尔','县']),
  (['X','N','6','h'], ['日','土','县']),
  (['U','u','L','g'], ['边','坝','县']),
  (['T','r','K','F'], ['工','布','江','达','县']),
  (['U','d','K','F'], ['嘉','黎','县']),
  (['V','T','K','f'], ['比','如','县']),
  (['V','u','L','2'], ['巴','青','县']),
  (['V','r','K','l'], ['索','县'])]

/-- part 1 of the places of lat_lon_data.cpp:57 -/
def r26_1 : List (List Char × List Char) := [
  (['W','7','J','I'], ['聂','荣','县']),
  (['V','T','J','4'], ['那','曲','县']),
  (['W','G','I','f'], ['安','多','县']),
  (['V','M','H','1'], ['班','戈','县']),
  (['T','d','H','y'], ['堆','龙','德','庆','县']),
  (['U','T','I','6'], ['当','雄','县']),
  (['T','R','H','9'], ['尼','木','县']),
  (['T','f','I','L'], ['达','孜','县']),
  (['T','s','I','F'], ['林','周','县']),
  (['T','o','I','i'], ['墨','竹','工','卡','县']),
  (['T','E','I','k'], ['乃','东','县']),
  (['T','G','J','1'], ['桑','日','县']),
  (['T','4','J','C'], ['曲','松','县']),
  (['T','2','I','f'], ['琼','结','县']),
  (['R','y','I','v'], ['错','那','县']),
  (['S','Q','I','Q'], ['措','美','县']),
  (['T','F','I','K'], ['扎','囊','县']),
  (['S','N','H','q'], ['洛','扎','县']),
  (['T','M','H','i'], ['曲','水','县']),
  (['T','I','H','x'], ['贡','嘎','县']),
  (['S','w','H','O'], ['浪','卡','子','县']),
  (['T','E','G','o'], ['仁','布','县']),
  (['S','Y','G','f'], ['康','马','县']),
  (['T','9','J','Z'], ['加','查','县']),
  (['S','P','J','S'], ['隆','子','县']),
  (['T','3','K','4'], ['朗','县']),
  (['T','D','L','D'], ['米','林','县']),
  (['T','f','L','M'], ['林','芝','县']),
  (['S','e','O','S'], ['察','隅','县']),
  (['T','K','M','K'], ['墨','脱','县']),
  (['T','q','M','k'], ['波','密','县']),
  (['U','j','M','o'], ['洛','隆','县']),
  (['U','q','P','G'], ['贡','觉','县']),
  (['V','U','P','D'], ['江','达','县']),
  (['T','f','P','a'], ['芒','康','县']),
  (['V','D','N','a'], ['类','乌','齐','县']),
  (['T','e','O','p'], ['左','贡','县']),
  (['V','P','M','a'], ['丁','青','县']),
  (['V','8','O','B'], ['昌','都','县']),
  (['U','3','N','t'], ['八','宿','县'])]

/-- part 2 of the places of lat_lon_data.cpp:57 -/
def r26_2 : List (List Char × List Char) := [
  (['U','d','O','Y'], ['察','雅','县'])]

/-- lat_lon_data.cpp:57 -/
def row26 : Row := ⟨['西','藏','自','治','区'], r26_0 ++ (r26_1 ++ (r26_2))⟩

/-- part 0 of the places of lat_lon_data.cpp:58 -/
def r27_0 : List (List Char × List Char) := [
  (['h','n','E','b'], ['乌','鲁','木','齐','市']),
  (['d','h','3','A'], ['克','孜','勒','苏','柯','尔','克','孜','自','治','州']),
  (['d','S','2','x'], ['喀','什','地','区']),
  (['f','A','7','G'], ['阿','克','苏','地','区']),
  (['h','t','8','J'], ['伊','犁','哈','萨','克','自','治','州']),
  (['i','s','9','4'], ['博','尔','塔','拉','蒙','古','自','治','州']),
  (['b','7','6','t'], ['和','田','地','区']),
  (['g','o','K','V'], ['哈','密','地','区']),
  (['g','v','G','A'], ['吐','鲁','番','地','区']),
  (['f','k','D','9'], ['巴','音','郭','楞','蒙','古','自','治','州']),
  (['i','1','E','I'], ['昌','吉','回','族','自','治','州']),
  (['j','a','B','q'], ['克','拉','玛','依','市']),
  (['k','j','9','x'], ['塔','城','地','区']),
  (['l','p','F','8'], ['阿','勒','泰','地','区']),
  (['h','o','E','c'], ['水','磨','沟','区']),
  (['h','p','E','a'], ['新','市','区']),
  (['h','q','E','P'], ['头','屯','河','区']),
  (['h','v','E','f'], ['东','山','区']),
  (['h','w','E','d'], ['米','泉','市']),
  (['j','a','B','q'], ['克','拉','玛','依','区']),
  (['i','J','B','p'], ['独','山','子','区']),
  (['d','h','3','A'], ['阿','图','什','市']),
  (['d','S','2','x'], ['喀','什','市']),
  (['f','A','7','G'], ['阿','克','苏','市']),
  (['e','X','8','H'], ['阿','拉','尔','市']),
  (['h','t','8','J'], ['伊','宁','市']),
  (['i','s','9','4'], ['博','乐','市']),
  (['d','p','6','8'], ['图','木','舒','克','市']),
  (['b','7','6','t'], ['和','田','市']),
  (['g','o','K','V'], ['哈','密','市']),
  (['i','A','E','W'], ['五','家','渠','市']),
  (['i','9','E','x'], ['阜','康','市']),
  (['g','v','G','A'], ['吐','鲁','番','市']),
  (['f','k','D','9'], ['库','尔','勒','市']),
  (['i','1','E','I'], ['昌','吉','市']),
  (['i','I','D','2'], ['石','河','子','市']),
  (['i','P','B','s'], ['奎','屯','市']),
  (['i','Q','B','f'], ['乌','苏','市']),
  (['k','j','9','x'], ['塔','城','市']),
  (['l','p','F','8'], ['阿','勒','泰','市'])]

/-- part 1 of the places of lat_lon_data.cpp:58 -/
def r27_1 : List (List Char × List Char) := [
  (['k','5','C','f'], ['乌','尔','禾','区']),
  (['j','g','C','8'], ['白','碱','滩','区']),
  (['b','b','5','H'], ['皮','山','县']),
  (['c','P','4','E'], ['莎','车','县']),
  (['c','B','4','G'], ['泽','普','县']),
  (['b','r','4','P'], ['叶','城','县']),
  (['c','s','4','d'], ['麦','盖','提','县']),
  (['d','l','5','X'], ['巴','楚','县']),
  (['d','E','3','k'], ['岳','普','湖','县']),
  (['d','O','3','3'], ['疏','勒','县']),
  (['d','N','2','p'], ['疏','附','县']),
  (['d','h','2','F'], ['乌','恰','县']),
  (['d','9','2','v'], ['阿','克','陶','县']),
  (['c','u','3','A'], ['英','吉','沙','县']),
  (['b','l','2','E'], ['塔','什','库','尔','干','塔','吉','克','自','治','县']),
  (['d','U','3','i'], ['伽','师','县']),
  (['e','u','5','R'], ['阿','合','奇','县']),
  (['e','U','6','3'], ['柯','坪','县']),
  (['f','D','6','E'], ['乌','什','县']),
  (['f','H','7','E'], ['温','宿','县']),
  (['e','c','7','N'], ['阿','瓦','提','县']),
  (['i','w','8','2'], ['温','泉','县']),
  (['i','3','7','r'], ['霍','城','县']),
  (['h','x','8','V'], ['伊','宁','县']),
  (['h','o','8','9'], ['察','布','查','尔','锡','伯','自','治','县']),
  (['h','9','8','8'], ['昭','苏','县']),
  (['h','D','8','o'], ['特','克','斯','县']),
  (['h','T','9','E'], ['巩','留','县']),
  (['h','Q','A','F'], ['新','源','县']),
  (['h','l','9','U'], ['尼','勒','克','县']),
  (['i','a','9','r'], ['精','河','县']),
  (['f','l','B','G'], ['轮','台','县']),
  (['f','m','8','q'], ['拜','城','县']),
  (['f','X','9','a'], ['新','和','县']),
  (['f','h','9','w'], ['库','车','县']),
  (['f','D','9','l'], ['沙','雅','县']),
  (['b','G','6','i'], ['墨','玉','县']),
  (['a','p','8','e'], ['于','田','县']),
  (['b','0','7','m'], ['策','勒','县']),
  (['b','4','7','B'], ['洛','浦','县'])]

/-- part 2 of the places of lat_lon_data.cpp:58 -/
def r27_2 : List (List Char × List Char) := [
  (['b','6','6','u'], ['和','田','县']),
  (['b','4','9','f'], ['民','丰','县']),
  (['c','8','C','W'], ['且','末','县']),
  (['d','1','F','A'], ['若','羌','县']),
  (['h','F','L','g'], ['伊','吾','县']),
  (['h','a','K','1'], ['巴','里','坤','哈','萨','克','自','治','县']),
  (['h','o','H','H'], ['木','垒','哈','萨','克','自','治','县']),
  (['g','l','F','d'], ['托','克','逊','县']),
  (['h','y','G','B'], ['吉','木','萨','尔','县']),
  (['i','1','G','Z'], ['奇','台','县']),
  (['g','q','H','D'], ['鄯','善','县']),
  (['g','G','D','q'], ['和','硕','县']),
  (['g','J','D','O'], ['和','静','县']),
  (['g','4','D','Y'], ['焉','耆','回','族','自','治','县']),
  (['f','x','D','c'], ['博','湖','县']),
  (['f','K','D','F'], ['尉','犁','县']),
  (['h','m','E','a'], ['乌','鲁','木','齐','县']),
  (['i','I','D','D'], ['玛','纳','斯','县']),
  (['i','B','D','s'], ['呼','图','壁','县']),
  (['i','K','C','b'], ['沙','湾','县']),
  (['k','m','C','h'], ['和','布','克','赛','尔','蒙','古','自','治','县']),
  (['l','Q','C','r'], ['吉','木','乃','县']),
  (['l','g','D','p'], ['布','尔','津','县']),
  (['m','4','D','P'], ['哈','巴','河','县']),
  (['k','y','G','V'], ['富','蕴','县']),
  (['l','7','E','U'], ['福','海','县']),
  (['k','W','A','c'], ['额','敏','县']),
  (['k','e','H','N'], ['青','河','县']),
  (['j','u','A','a'], ['托','里','县']),
  (['h','L','F','I'], ['达','坂','城','区']),
  (['h','l','E','a'], ['沙','依','巴','克','区']),
  (['h','l','E','d'], ['天','山','区']),
  (['k','C','9','x'], ['裕','民','县'])]

/-- lat_lon_data.cpp:58 -/
def row27 : Row := ⟨['新','疆','维','吾','尔'], r27_0 ++ (r27_1 ++ (r27_2))⟩

/-- part 0 of the places of lat_lon_data.cpp:59 -/
def r28_0 : List (List Char × List Char) := [
  (['P','3','T','h'], ['昆','明','市']),
  (['N','r','R','5'], ['临','沧','市']),
  (['M','1','R','m'], ['西','双','版','纳','傣','族','自','治','州']),
  (['M','l','R','w'], ['普','洱','市']),
  (['P','2','S','X'], ['楚','雄','彝','族','自','治','州']),
  (['O','L','T','X'], ['玉','溪','市']),
  (['P','a','R','E'], ['大','理','白','族','自','治','州']),
  (['P','7','Q','A'], ['保','山','市']),
  (['O','Q','P','Z'], ['德','宏','傣','族','景','颇','族','自','治','州']),
  (['P','p','P','p'], ['怒','江','傈','僳','族','自','治','州']),
  (['Q','r','R','E'], ['丽','江','市']),
  (['R','o','Q','g'], ['迪','庆','藏','族','自','治','州']),
  (['R','K','U','h'], ['昭','通','市']),
  (['P','U','U','m'], ['曲','靖','市']),
  (['N','M','V','F'], ['文','山','壮','族','苗','族','自','治','州']),
  (['N','M','U','O'], ['红','河','哈','尼','族','彝','族','自','治','州']),
  (['M','l','R','w'], ['普','洱','市']),
  (['N','r','R','5'], ['临','翔','区']),
  (['P','7','Q','A'], ['隆','阳','区']),
  (['Q','r','R','E'], ['古','城','区']),
  (['P','2','T','e'], ['西','山','区']),
  (['P','3','T','g'], ['五','华','区']),
  (['P','2','T','h'], ['盘','龙','区']),
  (['P','1','T','j'], ['官','渡','区']),
  (['Q','5','U','B'], ['东','川','区']),
  (['R','K','U','h'], ['昭','阳','区']),
  (['P','U','U','m'], ['麒','麟','区']),
  (['M','1','R','m'], ['景','洪','市']),
  (['P','2','S','X'], ['楚','雄','市']),
  (['O','t','T','T'], ['安','宁','市']),
  (['P','a','R','E'], ['大','理','市']),
  (['O','Q','P','Z'], ['潞','西','市']),
  (['O','1','O','p'], ['瑞','丽','市']),
  (['Q','D','V','6'], ['宣','威','市']),
  (['N','h','U','G'], ['开','远','市']),
  (['N','M','U','9'], ['个','旧','市']),
  (['S','a','U','v'], ['绥','江','县']),
  (['S','c','V','O'], ['水','富','县']),
  (['N','l','P','o'], ['镇','康','县']),
  (['N','9','Q','F'], ['沧','源','佤','族','自','治','县'])]

/-- part 1 of the places of lat_lon_data.cpp:59 -/
def r28_1 : List (List Char × List Char) := [
  (['N','X','Q','O'], ['耿','马','傣','族','佤','族','自','治','县']),
  (['N','S','Q','o'], ['双','江','拉','祜','族','佤','族','布','朗','族','傣','族','自','治','县']),
  (['M','c','Q','b'], ['西','盟','佤','族','自','治','县']),
  (['M','X','Q','u'], ['澜','沧','拉','祜','族','自','治','县']),
  (['L','w','R','R'], ['勐','海','县']),
  (['M','K','Q','Z'], ['孟','连','傣','族','拉','祜','族','佤','族','自','治','县']),
  (['L','T','S','Y'], ['勐','腊','县']),
  (['M','Z','S','p'], ['江','城','哈','尼','族','彝','族','自','治','县']),
  (['M','y','T','O'], ['绿','春','县']),
  (['N','E','T','o'], ['元','阳','县']),
  (['N','b','T','o'], ['建','水','县']),
  (['N','h','T','U'], ['石','屏','县']),
  (['N','M','T','P'], ['红','河','县']),
  (['N','a','T','0'], ['元','江','哈','尼','族','彝','族','傣','族','自','治','县']),
  (['N','Q','S','f'], ['墨','江','哈','尼','族','自','治','县']),
  (['N','4','S','3'], ['宁','洱','哈','尼','族','彝','族','自','治','县']),
  (['N','U','R','g'], ['景','谷','傣','族','彝','族','自','治','县']),
  (['O','R','R','o'], ['景','东','彝','族','自','治','县']),
  (['P','3','R','V'], ['南','涧','彝','族','自','治','县']),
  (['P','C','S','G'], ['南','华','县']),
  (['O','g','S','c'], ['双','柏','县']),
  (['O','0','S','6'], ['镇','沅','彝','族','哈','尼','族','拉','祜','族','自','治','县']),
  (['O','4','S','x'], ['新','平','彝','族','傣','族','自','治','县']),
  (['O','B','T','O'], ['峨','山','彝','族','自','治','县']),
  (['O','7','T','j'], ['通','海','县']),
  (['O','C','T','u'], ['华','宁','县']),
  (['O','H','T','j'], ['江','川','县']),
  (['O','e','T','a'], ['晋','宁','县']),
  (['O','e','T','t'], ['澄','江','县']),
  (['O','r','T','m'], ['呈','贡','县']),
  (['P','D','T','U'], ['富','民','县']),
  (['P','9','T','5'], ['禄','丰','县']),
  (['O','e','T','A'], ['易','门','县']),
  (['P','g','S','r'], ['元','谋','县']),
  (['P','W','T','O'], ['武','定','县']),
  (['P','X','T','S'], ['禄','劝','彝','族','苗','族','自','治','县']),
  (['P','L','U','2'], ['嵩','明','县']),
  (['Q','c','S','G'], ['华','坪','县']),
  (['Q','4','S','e'], ['永','仁','县']),
  (['P','J','S','W'], ['牟','定','县'])]

/-- part 2 of the places of lat_lon_data.cpp:59 -/
def r28_2 : List (List Char × List Char) := [
  (['P','U','S','E'], ['姚','安','县']),
  (['P','i','S','J'], ['大','姚','县']),
  (['P','T','R','X'], ['祥','云','县']),
  (['P','L','R','T'], ['弥','渡','县']),
  (['P','o','R','Z'], ['宾','川','县']),
  (['Q','f','R','j'], ['永','胜','县']),
  (['Q','Y','R','B'], ['鹤','庆','县']),
  (['Q','7','Q','v'], ['洱','源','县']),
  (['Q','W','Q','s'], ['剑','川','县']),
  (['Q','R','Q','P'], ['兰','坪','白','族','普','米','族','自','治','县']),
  (['P','r','Q','M'], ['云','龙','县']),
  (['P','S','Q','W'], ['永','平','县']),
  (['P','e','Q','v'], ['漾','濞','彝','族','自','治','县']),
  (['P','E','R','I'], ['巍','山','彝','族','回','族','自','治','县']),
  (['O','R','R','8'], ['云','县']),
  (['O','a','Q','t'], ['凤','庆','县']),
  (['O','2','Q','F'], ['永','德','县']),
  (['O','i','Q','B'], ['施','甸','县']),
  (['O','o','Q','a'], ['昌','宁','县']),
  (['P','2','P','U'], ['腾','冲','县']),
  (['O','n','P','I'], ['梁','河','县']),
  (['O','Z','P','f'], ['龙','陵','县']),
  (['O','C','O','m'], ['陇','川','县']),
  (['O','h','O','u'], ['盈','江','县']),
  (['P','p','P','p'], ['泸','水','县']),
  (['R','i','P','e'], ['贡','山','独','龙','族','怒','族','自','治','县']),
  (['Q','s','P','q'], ['福','贡','县']),
  (['R','B','Q','H'], ['维','西','傈','僳','族','自','治','县']),
  (['Q','n','R','E'], ['玉','龙','纳','西','族','自','治','县']),
  (['R','o','Q','g'], ['香','格','里','拉','县']),
  (['S','T','P','t'], ['德','钦','县']),
  (['R','H','R','p'], ['宁','蒗','彝','族','自','治','县']),
  (['Q','t','T','t'], ['巧','家','县']),
  (['R','C','U','X'], ['鲁','甸','县']),
  (['R','c','V','3'], ['彝','良','县']),
  (['R','j','U','r'], ['大','关','县']),
  (['S','7','V','E'], ['盐','津','县']),
  (['R','p','W','3'], ['威','信','县']),
  (['R','R','V','q'], ['镇','雄','县']),
  (['S','E','U','c'], ['永','善','县'])]

/-- part 3 of the places of lat_lon_data.cpp:59 -/
def r28_3 : List (List Char × List Char) := [
  (['Q','P','U','I'], ['会','泽','县']),
  (['P','Y','U','F'], ['寻','甸','回','族','彝','族','自','治','县']),
  (['P','b','U','n'], ['沾','益','县']),
  (['P','Q','U','Z'], ['马','龙','县']),
  (['P','e','V','F'], ['富','源','县']),
  (['O','r','V','I'], ['罗','平','县']),
  (['O','o','U','x'], ['师','宗','县']),
  (['P','2','U','e'], ['陆','良','县']),
  (['O','t','U','9'], ['宜','良','县']),
  (['O','k','U','G'], ['石','林','彝','族','自','治','县']),
  (['O','W','U','k'], ['泸','西','县']),
  (['O','O','U','Q'], ['弥','勒','县']),
  (['O','3','V','B'], ['丘','北','县']),
  (['O','3','W','4'], ['广','南','县']),
  (['N','c','W','b'], ['富','宁','县']),
  (['N','7','V','g'], ['麻','栗','坡','县']),
  (['N','R','V','e'], ['西','畴','县']),
  (['N','b','V','K'], ['砚','山','县']),
  (['N','M','V','F'], ['文','山','县']),
  (['N','M','U','O'], ['蒙','自','县']),
  (['M','V','U','w'], ['河','口','瑶','族','自','治','县']),
  (['N','1','V','O'], ['马','关','县']),
  (['M','x','U','f'], ['屏','边','苗','族','自','治','县']),
  (['M','l','U','D'], ['金','平','苗','族','瑶','族','傣','族','自','治','县'])]

/-- lat_lon_data.cpp:59 -/
def row28 : Row := ⟨['云','南','省'], r28_0 ++ (r28_1 ++ (r28_2 ++ (r28_3)))⟩

/-- part 0 of the places of lat_lon_data.cpp:60 -/
def r29_0 : List (List Char × List Char) := [
  (['U','H','l','9'], ['杭','州','市']),
  (['U','F','l','A'], ['上','城','区']),
  (['U','H','l','A'], ['下','城','区']),
  (['U','J','l','8'], ['拱','墅','区']),
  (['U','G','l','C'], ['江','干','区']),
  (['U','G','l','8'], ['西','湖','区']),
  (['U','C','l','C'], ['滨','江','区']),
  (['U','A','l','G'], ['萧','山','区']),
  (['U','P','l','I'], ['余','杭','区']),
  (['U','E','k','h'], ['临','安','市']),
  (['T','m','k','e'], ['桐','庐','县']),
  (['U','3','k','v'], ['富','阳','市']),
  (['T','T','k','H'], ['建','德','市']),
  (['T','a','k','2'], ['淳','安','县']),
  (['T','r','m','X'], ['宁','波','市']),
  (['T','q','m','X'], ['海','曙','区']),
  (['T','q','m','Y'], ['江','东','区']),
  (['T','r','m','X'], ['江','北','区']),
  (['T','u','m','p'], ['北','仑','区']),
  (['T','v','m','h'], ['镇','海','区']),
  (['T','o','m','W'], ['鄞','州','区']),
  (['U','2','m','9'], ['余','姚','市']),
  (['U','A','m','E'], ['慈','溪','市']),
  (['T','d','m','O'], ['奉','化','市']),
  (['T','H','m','Q'], ['宁','海','县']),
  (['T','T','m','q'], ['象','山','县']),
  (['R','y','l','g'], ['温','州','市']),
  (['S','1','l','d'], ['鹿','城','区']),
  (['R','u','l','n'], ['龙','湾','区']),
  (['S','1','l','c'], ['瓯','海','区']),
  (['R','l','l','c'], ['瑞','安','市']),
  (['S','9','l','f'], ['永','嘉','县']),
  (['S','8','l','v'], ['乐','清','市']),
  (['R','e','l','Y'], ['平','阳','县']),
  (['R','U','l','O'], ['苍','南','县']),
  (['R','l','l','5'], ['文','成','县']),
  (['R','Y','k','h'], ['泰','顺','县']),
  (['R','o','m','9'], ['洞','头','县']),
  (['U','0','l','Y'], ['绍','兴','市']),
  (['U','0','l','Y'], ['越','城','区'])]

/-- part 1 of the places of lat_lon_data.cpp:60 -/
def r29_1 : List (List Char × List Char) := [
  (['U','5','l','S'], ['绍','兴','县']),
  (['U','2','l','q'], ['上','虞','市']),
  (['T','Z','l','n'], ['嵊','州','市']),
  (['T','U','l','s'], ['新','昌','县']),
  (['T','h','l','E'], ['诸','暨','市']),
  (['U','j','l','j'], ['嘉','兴','市']),
  (['U','k','l','j'], ['南','湖','区']),
  (['U','k','l','g'], ['秀','洲','区']),
  (['U','W','l','f'], ['海','宁','市']),
  (['U','p','l','t'], ['嘉','善','县']),
  (['U','W','l','v'], ['海','盐','县']),
  (['U','c','l','Y'], ['桐','乡','市']),
  (['U','g','m','1'], ['平','湖','市']),
  (['U','s','l','5'], ['湖','州','市']),
  (['U','q','l','7'], ['吴','兴','区']),
  (['U','r','l','Q'], ['南','浔','区']),
  (['U','W','k','w'], ['德','清','县']),
  (['V','1','k','s'], ['长','兴','县']),
  (['U','c','k','f'], ['安','吉','县']),
  (['T','5','k','d'], ['金','华','市']),
  (['T','5','k','d'], ['婺','城','区']),
  (['T','5','k','g'], ['金','东','区']),
  (['T','D','k','R'], ['兰','溪','市']),
  (['S','s','l','2'], ['永','康','市']),
  (['S','s','k','n'], ['武','义','县']),
  (['T','H','l','E'], ['东','阳','市']),
  (['T','3','l','Q'], ['磐','安','县']),
  (['T','I','l','4'], ['义','乌','市']),
  (['T','R','k','r'], ['浦','江','县']),
  (['S','u','j','q'], ['衢','州','市']),
  (['S','u','j','q'], ['柯','城','区']),
  (['S','x','j','u'], ['衢','江','区']),
  (['S','j','j','b'], ['江','山','市']),
  (['S','s','j','V'], ['常','山','县']),
  (['T','2','k','A'], ['龙','游','县']),
  (['T','8','j','P'], ['开','化','县']),
  (['T','y','n','C'], ['舟','山','市']),
  (['U','1','n','6'], ['定','海','区']),
  (['T','v','n','I'], ['普','陀','区']),
  (['U','F','n','C'], ['岱','山','县'])]

/-- part 2 of the places of lat_lon_data.cpp:60 -/
def r29_2 : List (List Char × List Char) := [
  (['U','i','n','R'], ['嵊','泗','县']),
  (['S','f','m','Q'], ['台','州','市']),
  (['S','f','m','Q'], ['椒','江','区']),
  (['S','d','m','G'], ['黄','岩','区']),
  (['S','Z','m','N'], ['路','桥','区']),
  (['S','p','m','7'], ['临','海','市']),
  (['S','k','m','U'], ['杜','桥','镇']),
  (['S','M','m','M'], ['温','岭','市']),
  (['S','q','l','i'], ['仙','居','县']),
  (['T','8','m','2'], ['天','台','县']),
  (['T','7','m','N'], ['三','门','县']),
  (['S','8','m','E'], ['玉','环','县']),
  (['S','R','k','t'], ['丽','水','市']),
  (['S','R','k','t'], ['莲','都','区']),
  (['S','9','l','H'], ['青','田','县']),
  (['S','7','k','Y'], ['云','和','县']),
  (['S','5','k','8'], ['龙','泉','市']),
  (['R','b','k','3'], ['庆','元','县']),
  (['S','d','l','4'], ['缙','云','县']),
  (['S','a','k','G'], ['遂','昌','县']),
  (['S','R','k','T'], ['松','阳','县']),
  (['R','x','k','c'], ['景','宁','畲','族','自','治','县'])]

/-- lat_lon_data.cpp:60 -/
def row29 : Row := ⟨['浙','江','省'], r29_0 ++ (r29_1 ++ (r29_2))⟩

/-- part 0 of the places of lat_lon_data.cpp:61 -/
def r30_0 : List (List Char × List Char) := [
  (['T','Y','X','X'], ['重','庆','市']),
  (['U','K','Y','L'], ['垫','江','县']),
  (['T','T','W','l'], ['双','桥','区']),
  (['T','L','W','s'], ['永','川','区']),
  (['T','I','X','F'], ['江','津','区']),
  (['T','W','X','R'], ['沙','坪','坝','区']),
  (['T','T','X','T'], ['大','渡','口','区']),
  (['T','U','X','U'], ['九','龙','坡','区']),
  (['T','a','X','Y'], ['江','北','区']),
  (['T','V','X','Y'], ['南','岸','区']),
  (['T','X','X','Y'], ['渝','中','区']),
  (['T','N','X','V'], ['巴','南','区']),
  (['T','A','Y','6'], ['南','川','区']),
  (['S','w','X','t'], ['万','盛','区']),
  (['T','q','Y','5'], ['长','寿','区']),
  (['T','h','Y','O'], ['涪','陵','区']),
  (['T','h','X','c'], ['渝','北','区']),
  (['T','m','X','O'], ['北','碚','区']),
  (['T','x','X','G'], ['合','川','区']),
  (['U','n','Z','O'], ['万','州','区']),
  (['T','W','Z','k'], ['黔','江','区']),
  (['T','O','W','Z'], ['荣','昌','县']),
  (['T','2','X','d'], ['綦','江','县']),
  (['T','K','Y','j'], ['武','隆','县']),
  (['T','q','Y','i'], ['丰','都','县']),
  (['U','I','Z','1'], ['忠','县']),
  (['U','f','Y','m'], ['梁','平','县']),
  (['T','a','X','D'], ['璧','山','县']),
  (['T','p','X','3'], ['铜','梁','县']),
  (['U','B','W','o'], ['潼','南','县']),
  (['T','g','W','h'], ['大','足','县']),
  (['V','B','Z','P'], ['开','县']),
  (['V','v','Z','e'], ['城','口','县']),
  (['V','O','a','c'], ['巫','溪','县']),
  (['V','1','a','S'], ['奉','节','县']),
  (['V','5','a','r'], ['巫','山','县']),
  (['U','v','Z','e'], ['云','阳','县']),
  (['U','0','Z','7'], ['石','柱','土','家','族','自','治','县']),
  (['T','I','Z','A'], ['彭','水','苗','族','土','家','族','自','治','县']),
  (['S','p','Z','k'], ['酉','阳','土','家','族','苗','族','自','治','县'])]

/-- part 1 of the places of lat_lon_data.cpp:61 -/
def r30_1 : List (List Char × List Char) := [
  (['S','R','Z','x'], ['秀','山','土','家','族','苗','族','自','治','县'])]

/-- lat_lon_data.cpp:61 -/
def row30 : Row := ⟨['重','庆','市'], r30_0 ++ (r30_1)⟩

/-- part 0 of the places of lat_lon_data.cpp:62 -/
def r31_0 : List (List Char × List Char) := [
  (['M','C','f','5'], ['香','港']),
  (['M','8','e','K'], ['澳','门']),
  (['P','2','m','U'], ['台','北','市']),
  (['M','b','l','H'], ['高','雄','市']),
  (['P','8','m','i'], ['基','隆','市']),
  (['O','9','l','e'], ['台','中','市']),
  (['N','0','l','C'], ['台','南','市']),
  (['O','n','l','v'], ['新','竹','市']),
  (['N','T','l','Q'], ['嘉','义','市']),
  (['P','1','m','S'], ['台','北','县']),
  (['O','k','m','j'], ['宜','兰','县']),
  (['O','w','m','I'], ['桃','园','县']),
  (['O','W','l','m'], ['苗','栗','县']),
  (['O','F','l','h'], ['台','中','县']),
  (['O','5','l','W'], ['彰','化','县']),
  (['N','t','l','e'], ['南','投','县']),
  (['N','h','l','W'], ['云','林','县']),
  (['N','J','l','J'], ['台','南','县']),
  (['M','c','l','M'], ['高','雄','县']),
  (['M','e','l','T'], ['屏','东','县']),
  (['M','j','m','9'], ['台','东','县']),
  (['N','x','m','a'], ['花','莲','县']),
  (['N','Z','k','Z'], ['澎','湖','县','	'])]

/-- lat_lon_data.cpp:62 -/
def row31 : Row := ⟨['港','澳','台'], r31_0⟩

/-- `JW` — lat_lon_data.cpp:31-65 -/
def rows : List Row := [row0, row1, row2, row3, row4, row5, row6, row7, row8, row9, row10, row11, row12, row13, row14, row15, row16, row17, row18, row19, row20, row21, row22, row23, row24, row25, row26, row27, row28, row29, row30, row31]

end Verif.City
