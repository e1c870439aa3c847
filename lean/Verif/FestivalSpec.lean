/-! Generated by tools/gen_fest.py.

# The festivals as calendar records

`Cls` is the class of a festival in the day record: `A` day off, `B` important, `C` other. -/

namespace Verif.Fest

inductive Cls | A | B | C
  deriving DecidableEq

/-- a festival on a fixed day of the Gregorian year, with its first and last year -/
structure Fixed where
  month : Nat
  day : Nat
  cls : Cls
  first : Int
  /-- `none`: no last year stated -/
  last : Option Int
  name : String

/-- a festival on the `nth` weekday (0 = Sunday) of a month; `nth = 5` means the last one -/
structure Weekly where
  month : Nat
  nth : Nat
  weekday : Nat
  cls : Cls
  name : String

/-- festivals on fixed days; without stated years they count from 1850 -/
def fixedDays : List Fixed := [
  ⟨1, 1, .A, 1850, none, "元旦"⟩,
  ⟨2, 2, .B, 1850, none, "世界湿地日"⟩,
  ⟨2, 10, .C, 1850, none, "国际气象节"⟩,
  ⟨2, 14, .B, 1850, none, "情人节"⟩,
  ⟨3, 1, .C, 1850, none, "国际海豹日"⟩,
  ⟨3, 3, .C, 1850, none, "全国爱耳日"⟩,
  ⟨3, 5, .C, 1963, some 9999, "学雷锋纪念日"⟩,
  ⟨3, 8, .B, 1850, none, "妇女节"⟩,
  ⟨3, 12, .B, 1850, none, "植树节"⟩,
  ⟨3, 12, .C, 1925, some 9999, "孙中山逝世纪念日"⟩,
  ⟨3, 14, .C, 1850, none, "国际警察日"⟩,
  ⟨3, 15, .B, 1983, some 9999, "消费者权益日"⟩,
  ⟨3, 17, .C, 1850, none, "中国国医节"⟩,
  ⟨3, 17, .C, 1850, none, "国际航海日"⟩,
  ⟨3, 21, .C, 1850, none, "世界森林日"⟩,
  ⟨3, 21, .C, 1850, none, "消除种族歧视国际日"⟩,
  ⟨3, 21, .C, 1850, none, "世界儿歌日"⟩,
  ⟨3, 22, .B, 1850, none, "世界水日"⟩,
  ⟨3, 23, .B, 1850, none, "世界气象日"⟩,
  ⟨3, 24, .C, 1982, some 9999, "世界防治结核病日"⟩,
  ⟨3, 25, .C, 1850, none, "全国中小学生安全教育日"⟩,
  ⟨3, 30, .C, 1850, none, "巴勒斯坦国土日"⟩,
  ⟨4, 1, .B, 1564, some 9999, "愚人节"⟩,
  ⟨4, 1, .C, 1850, none, "全国爱国卫生运动月(四月)"⟩,
  ⟨4, 1, .C, 1850, none, "税收宣传月(四月)"⟩,
  ⟨4, 7, .B, 1850, none, "世界卫生日"⟩,
  ⟨4, 22, .B, 1850, none, "世界地球日"⟩,
  ⟨4, 23, .C, 1850, none, "世界图书和版权日"⟩,
  ⟨4, 24, .C, 1850, none, "亚非新闻工作者日"⟩,
  ⟨5, 1, .A, 1889, some 9999, "劳动节"⟩,
  ⟨5, 4, .B, 1850, none, "青年节"⟩,
  ⟨5, 5, .C, 1850, none, "碘缺乏病防治日"⟩,
  ⟨5, 8, .C, 1850, none, "世界红十字日"⟩,
  ⟨5, 12, .B, 1850, none, "国际护士节"⟩,
  ⟨5, 15, .B, 1850, none, "国际家庭日"⟩,
  ⟨5, 17, .C, 1850, none, "国际电信日"⟩,
  ⟨5, 18, .C, 1850, none, "国际博物馆日"⟩,
  ⟨5, 20, .C, 1850, none, "全国学生营养日"⟩,
  ⟨5, 23, .C, 1850, none, "国际牛奶日"⟩,
  ⟨5, 31, .B, 1850, none, "世界无烟日"⟩,
  ⟨6, 1, .B, 1925, some 9999, "国际儿童节"⟩,
  ⟨6, 5, .C, 1850, none, "世界环境保护日"⟩,
  ⟨6, 6, .C, 1850, none, "全国爱眼日"⟩,
  ⟨6, 17, .C, 1850, none, "防治荒漠化和干旱日"⟩,
  ⟨6, 23, .C, 1850, none, "国际奥林匹克日"⟩,
  ⟨6, 25, .C, 1850, none, "全国土地日"⟩,
  ⟨6, 26, .B, 1850, none, "国际禁毒日"⟩,
  ⟨7, 1, .B, 1997, some 9999, "香港回归纪念日"⟩,
  ⟨7, 1, .B, 1921, some 9999, "中共诞辰"⟩,
  ⟨7, 1, .C, 1850, none, "世界建筑日"⟩,
  ⟨7, 2, .C, 1850, none, "国际体育记者日"⟩,
  ⟨7, 7, .B, 1937, some 9999, "抗日战争纪念日"⟩,
  ⟨7, 11, .B, 1850, none, "世界人口日"⟩,
  ⟨7, 30, .C, 1850, none, "非洲妇女日"⟩,
  ⟨8, 1, .B, 1927, some 9999, "建军节"⟩,
  ⟨8, 8, .C, 1850, none, "中国男子节(爸爸节)"⟩,
  ⟨9, 3, .B, 1945, some 9999, "抗日战争胜利纪念"⟩,
  ⟨9, 8, .C, 1966, some 9999, "国际扫盲日"⟩,
  ⟨9, 8, .C, 1850, none, "国际新闻工作者日"⟩,
  ⟨9, 9, .C, 1850, none, "毛泽东逝世纪念"⟩,
  ⟨9, 10, .B, 1850, none, "中国教师节"⟩,
  ⟨9, 14, .C, 1850, none, "世界清洁地球日"⟩,
  ⟨9, 16, .C, 1850, none, "国际臭氧层保护日"⟩,
  ⟨9, 18, .B, 1850, none, "九·一八事变纪念日"⟩,
  ⟨9, 20, .C, 1850, none, "国际爱牙日"⟩,
  ⟨9, 27, .C, 1850, none, "世界旅游日"⟩,
  ⟨9, 28, .B, 1850, none, "孔子诞辰"⟩,
  ⟨10, 1, .A, 1949, some 9999, "国庆节"⟩,
  ⟨10, 1, .C, 1850, none, "世界音乐日"⟩,
  ⟨10, 1, .C, 1850, none, "国际老人节"⟩,
  ⟨10, 2, .A, 1949, some 9999, "国庆节假日"⟩,
  ⟨10, 2, .C, 1850, none, "国际和平与民主自由斗争日"⟩,
  ⟨10, 3, .A, 1949, some 9999, "国庆节假日"⟩,
  ⟨10, 4, .C, 1850, none, "世界动物日"⟩,
  ⟨10, 6, .C, 1850, none, "老人节"⟩,
  ⟨10, 8, .C, 1850, none, "全国高血压日"⟩,
  ⟨10, 8, .C, 1850, none, "世界视觉日"⟩,
  ⟨10, 9, .C, 1850, none, "世界邮政日"⟩,
  ⟨10, 9, .C, 1850, none, "万国邮联日"⟩,
  ⟨10, 10, .B, 1850, none, "辛亥革命纪念日"⟩,
  ⟨10, 10, .C, 1850, none, "世界精神卫生日"⟩,
  ⟨10, 13, .C, 1850, none, "世界保健日"⟩,
  ⟨10, 13, .C, 1850, none, "国际教师日"⟩,
  ⟨10, 14, .C, 1850, none, "世界标准日"⟩,
  ⟨10, 15, .C, 1850, none, "国际盲人节(白手杖节)"⟩,
  ⟨10, 16, .C, 1850, none, "世界粮食日"⟩,
  ⟨10, 17, .C, 1850, none, "世界消除贫困日"⟩,
  ⟨10, 22, .C, 1850, none, "世界传统医药日"⟩,
  ⟨10, 24, .C, 1850, none, "联合国日"⟩,
  ⟨10, 31, .C, 1850, none, "世界勤俭日"⟩,
  ⟨11, 7, .C, 1917, some 9999, "十月社会主义革命纪念日"⟩,
  ⟨11, 8, .C, 1850, none, "中国记者日"⟩,
  ⟨11, 9, .C, 1850, none, "全国消防安全宣传教育日"⟩,
  ⟨11, 10, .C, 1850, none, "世界青年节"⟩,
  ⟨11, 11, .C, 1850, none, "国际科学与和平周(本日所属的一周)"⟩,
  ⟨11, 12, .C, 1850, none, "孙中山诞辰纪念日"⟩,
  ⟨11, 14, .C, 1850, none, "世界糖尿病日"⟩,
  ⟨11, 17, .C, 1850, none, "国际大学生节"⟩,
  ⟨11, 17, .C, 1850, none, "世界学生节"⟩,
  ⟨11, 20, .C, 1850, none, "彝族年"⟩,
  ⟨11, 21, .C, 1850, none, "彝族年"⟩,
  ⟨11, 21, .C, 1850, none, "世界问候日"⟩,
  ⟨11, 21, .C, 1850, none, "世界电视日"⟩,
  ⟨11, 22, .C, 1850, none, "彝族年"⟩,
  ⟨11, 29, .C, 1850, none, "国际声援巴勒斯坦人民国际日"⟩,
  ⟨12, 1, .B, 1988, some 9999, "世界艾滋病日"⟩,
  ⟨12, 3, .C, 1850, none, "世界残疾人日"⟩,
  ⟨12, 5, .C, 1850, none, "国际经济和社会发展志愿人员日"⟩,
  ⟨12, 8, .C, 1850, none, "国际儿童电视日"⟩,
  ⟨12, 9, .C, 1850, none, "世界足球日"⟩,
  ⟨12, 10, .C, 1850, none, "世界人权日"⟩,
  ⟨12, 12, .B, 1850, none, "西安事变纪念日"⟩,
  ⟨12, 13, .B, 1850, none, "南京大屠杀(1937年)纪念日"⟩,
  ⟨12, 20, .C, 1850, none, "澳门回归纪念"⟩,
  ⟨12, 21, .C, 1850, none, "国际篮球日"⟩,
  ⟨12, 24, .B, 1850, none, "平安夜"⟩,
  ⟨12, 25, .B, 1850, none, "圣诞节"⟩,
  ⟨12, 26, .C, 1850, none, "毛泽东诞辰纪念"⟩]

/-- festivals on the n-th weekday of a month -/
def weeklyDays : List Weekly := [
  ⟨1, 5, 0, .B, "世界麻风日"⟩,
  ⟨5, 2, 0, .C, "国际母亲节"⟩,
  ⟨5, 3, 0, .B, "全国助残日"⟩,
  ⟨6, 3, 0, .C, "父亲节"⟩,
  ⟨7, 3, 0, .C, "被奴役国家周"⟩,
  ⟨9, 3, 2, .B, "国际和平日"⟩,
  ⟨9, 4, 0, .C, "国际聋人节 世界儿童日"⟩,
  ⟨9, 5, 0, .B, "世界海事日"⟩,
  ⟨10, 1, 1, .C, "国际住房日"⟩,
  ⟨10, 1, 3, .B, "国际减轻自然灾害日(减灾日)"⟩,
  ⟨11, 4, 4, .B, "感恩节"⟩]

end Verif.Fest
