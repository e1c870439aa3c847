import Mathlib.Data.Int.Notation

/-!
# An index of the names of places, generated by tools/gen_cityindex.py

Not part of the model: a certificate used to prove which names occur in earlier texts (Props/City.lean checks it).
-/

namespace Verif.City

/-- a search tree with keys and values -/
inductive Idx
  | leaf
  | node (k v : Nat) (l r : Idx)

/-- part of the search tree -/
def idx0 : Idx :=
  .node 1874040296 31002 (.node 1647793087 22076 (.node 1539199935 10112 (.node 1388925887 22038 (.node 1325093823 8081 (.node 1316901823 22049 (.node 1312052159 21123 .leaf .leaf) (.node 1323520959 21110 .leaf .leaf)) (.node 1369461695 20106 (.node 1332958143 22118 .leaf .leaf) .leaf)) (.node 1408652223 9135 (.node 1407472575 21067 (.node 1398100927 20099 .leaf .leaf) .leaf) (.node 1538872255 5102 (.node 1510036415 8124 .leaf .leaf) .leaf))) (.node 1589072831 3092 (.node 1553617855 21118 (.node 1543459775 2096 (.node 1540117439 22098 .leaf .leaf) .leaf) (.node 1567183807 9097 (.node 1555518399 3087 .leaf .leaf) .leaf)) (.node 1608537023 30026 (.node 1606243263 3095 (.node 1600934847 22102 .leaf .leaf) .leaf) (.node 1645237183 3096 (.node 1617908671 9117 .leaf .leaf) .leaf)))) (.node 1822118847 14116 (.node 1727615935 20098 (.node 1703367615 3090 (.node 1698190271 12120 (.node 1648317375 11101 .leaf .leaf) .leaf) (.node 1718571967 8119 (.node 1712542655 8171 .leaf .leaf) .leaf)) (.node 1781158847 5043 (.node 1753568191 4128 (.node 1734235071 9152 .leaf .leaf) .leaf) (.node 1821987775 1079 (.node 1801016255 2120 .leaf .leaf) .leaf))) (.node 1837716415 8073 (.node 1828213695 24185 (.node 1826051007 2102 (.node 1822905279 8139 .leaf .leaf) .leaf) (.node 1834636223 9165 (.node 1828606911 2115 .leaf .leaf) .leaf)) (.node 1859212223 9145 (.node 1848202175 9168 (.node 1841779647 9144 .leaf .leaf) .leaf) (.node 1865634751 3083 (.node 1860588479 8147 .leaf .leaf) .leaf))))) (.node 2421380031 12067 (.node 2198033343 9089 (.node 2002932671 9155 (.node 1992446911 21096 (.node 1940870079 3065 (.node 1932415935 8114 .leaf .leaf) (.node 1943622591 24191 .leaf .leaf)) (.node 1997099967 22046 (.node 1993888703 6030 .leaf .leaf) .leaf)) (.node 2034324415 21073 (.node 2033996735 3077 (.node 2025935807 8074 .leaf .leaf) .leaf) (.node 2197967807 24160 (.node 2099401663 26040 .leaf .leaf) .leaf))) (.node 2233095103 8175 (.node 2217169855 2089 (.node 2207798207 20113 (.node 2207404991 20133 .leaf .leaf) .leaf) (.node 2229228479 25020 (.node 2226279359 21059 .leaf .leaf) .leaf)) (.node 2369344447 20130 (.node 2283885503 8109 (.node 2246333375 5100 .leaf .leaf) .leaf) (.node 2373276607 8098 (.node 2372096959 15044 .leaf .leaf) .leaf)))) (.node 2665436095 2119 (.node 2522174399 9175 (.node 2431079359 11100 (.node 2429506495 9138 (.node 2429178682 2049 .leaf .leaf) .leaf) (.node 2521256895 22107 (.node 2431341503 24166 .leaf .leaf) .leaf)) (.node 2538755007 8140 (.node 2529448895 8166 (.node 2528138175 21060 .leaf .leaf) .leaf) (.node 2605667263 8131 (.node 2576969263 31001 .leaf .leaf) .leaf))) (.node 85793556419519 15098 (.node 85793506942466 7010 (.node 85793337529279 8177 (.node 85768740688831 26078 .leaf .leaf) .leaf) (.node 85793546588986 30020 (.node 85793507464127 15060 .leaf .leaf) .leaf)) (.node 85794176062399 21056 (.node 85793965822778 30014 (.node 85793826692610 24066 .leaf .leaf) .leaf) (.node 85801880411650 7002 (.node 85794379092927 15068 .leaf .leaf) .leaf)))))

/-- part of the search tree -/
def idx1 : Idx :=
  .node 85883989742394 17028 (.node 85849537205183 27083 (.node 85806602998719 15064 (.node 85802614215615 6063 (.node 85802273889794 1005 (.node 85801969931199 24158 (.node 85801964622783 22078 .leaf .leaf) (.node 85802112602938 2058 .leaf .leaf)) (.node 85802385366530 8012 (.node 85802377040698 4039 .leaf .leaf) .leaf)) (.node 85806469174207 5048 (.node 85806329779002 29002 (.node 85803076703167 29091 .leaf .leaf) .leaf) (.node 85806594610111 5057 (.node 85806591857599 1069 .leaf .leaf) .leaf))) (.node 85807431308223 15110 (.node 85807090193343 9132 (.node 85806781387711 15043 (.node 85806693178882 23001 .leaf .leaf) .leaf) (.node 85807144063802 9031 (.node 85807110970882 29042 .leaf .leaf) .leaf)) (.node 85810518119226 14086 (.node 85807454507967 15070 (.node 85807431310850 15011 .leaf .leaf) .leaf) (.node 85811672798010 11017 (.node 85810624746298 29003 .leaf .leaf) .leaf)))) (.node 85883639190330 9 (.node 85883529810879 8138 (.node 85883477840831 13057 (.node 85879279342394 8066 (.node 85866380219327 28133 .leaf .leaf) .leaf) (.node 85883481052095 15100 (.node 85883478692666 25011 .leaf .leaf) .leaf)) (.node 85883532631554 5029 (.node 85883532628794 24024 (.node 85883532366783 5053 .leaf .leaf) .leaf) (.node 85883632046906 24037 (.node 85883574312450 14080 .leaf .leaf) .leaf))) (.node 85883716981695 1055 (.node 85883701777343 12071 (.node 85883701777210 10074 (.node 85883701253055 10117 .leaf .leaf) .leaf) (.node 85883716981562 10058 (.node 85883703087930 11043 .leaf .leaf) .leaf)) (.node 85883872697858 7007 (.node 85883750667199 20114 (.node 85883740836666 28025 .leaf .leaf) .leaf) (.node 85883878265791 20105 (.node 85883878134586 13049 .leaf .leaf) .leaf))))) (.node 85956887139263 12076 (.node 85884577600447 13058 (.node 85884021003199 4107 (.node 85884014646074 20066 (.node 85884002587583 14111 (.node 85883998065466 16085 .leaf .leaf) .leaf) (.node 85884017201978 15020 (.node 85884014648834 16063 .leaf .leaf) .leaf)) (.node 85884374244866 4012 (.node 85884346258367 2068 (.node 85884327973690 17033 .leaf .leaf) .leaf) (.node 85884383092226 20014 (.node 85884383089466 20034 .leaf .leaf) .leaf))) (.node 85944005254658 28036 (.node 85884690322234 16030 (.node 85884686783423 20111 (.node 85884685999618 29066 .leaf .leaf) .leaf) (.node 85918125085631 3091 (.node 85884729709370 10062 .leaf .leaf) .leaf)) (.node 85956715697087 18022 (.node 85956583445306 9026 (.node 85956580040194 18004 .leaf .leaf) .leaf) (.node 85956731428354 4006 (.node 85956731425594 16037 .leaf .leaf) .leaf)))) (.node 85970569879042 17037 (.node 85969473655610 12 (.node 85957241557818 9048 (.node 85957099344831 9149 (.node 85956998681535 24157 .leaf .leaf) .leaf) (.node 85969463628602 8018 (.node 85957700441023 21064 .leaf .leaf) .leaf)) (.node 85969905013562 8015 (.node 85969893937978 1021 (.node 85969538539010 15035 .leaf .leaf) .leaf) (.node 85970497917887 30025 (.node 85969925657402 13022 .leaf .leaf) .leaf))) (.node 85986820051770 15016 (.node 85986739442623 3040 (.node 85986718405567 8084 (.node 85970623550399 4127 .leaf .leaf) .leaf) (.node 85986780995074 29010 (.node 85986739445250 3030 .leaf .leaf) .leaf)) (.node 85987047134143 12135 (.node 85986994443199 5089 (.node 85986974389183 20140 .leaf .leaf) .leaf) (.node 85987065486850 21003 (.node 85987063455234 13028 .leaf .leaf) .leaf)))))

/-- part of the search tree -/
def idx2 : Idx :=
  .node 86107350195714 29033 (.node 86008296395711 24107 (.node 85987114701759 3038 (.node 85987081805314 29086 (.node 85987070399423 2087 (.node 85987068564415 20136 (.node 85987068173826 28002 .leaf .leaf) (.node 85987068957498 17032 .leaf .leaf)) (.node 85987077018559 3084 (.node 85987073807295 3050 .leaf .leaf) .leaf)) (.node 85987093730106 22032 (.node 85987091111426 8055 (.node 85987086848826 20048 .leaf .leaf) .leaf) (.node 85987110900671 8075 (.node 85987096550914 12059 .leaf .leaf) .leaf))) (.node 85987670709183 20118 (.node 85987176174527 21045 (.node 85987118502847 12095 (.node 85987115684666 22025 .leaf .leaf) .leaf) (.node 85987552089023 8128 (.node 85987389887290 28018 .leaf .leaf) .leaf)) (.node 86008030584322 16005 (.node 85987843134399 7022 (.node 85987804664767 9129 .leaf .leaf) .leaf) (.node 86008262054847 6072 (.node 86008094020543 22066 .leaf .leaf) .leaf)))) (.node 86089861785047 17057 (.node 86050980254655 26051 (.node 86009240051202 14065 (.node 86008480748479 24174 (.node 86008323527482 14042 .leaf .leaf) .leaf) (.node 86025718160898 28011 (.node 86025715342850 29093 .leaf .leaf) .leaf)) (.node 86078030372354 9079 (.node 86076753206786 29068 (.node 86060083925951 19049 .leaf .leaf) .leaf) (.node 86089690796991 19030 (.node 86089645708223 27059 .leaf .leaf) .leaf))) (.node 86106814698431 5072 (.node 86090161020418 17004 (.node 86089942455231 27052 (.node 86089923777338 6017 .leaf .leaf) .leaf) (.node 86090736096058 17035 (.node 86090519109122 27038 .leaf .leaf) .leaf)) (.node 86107055283714 24016 (.node 86107040076735 15089 (.node 86106824332223 8144 .leaf .leaf) .leaf) (.node 86107216436738 4066 (.node 86107088969218 15039 .leaf .leaf) .leaf))))) (.node 86386415195071 31017 (.node 86180053996479 21055 (.node 86163157111743 15077 (.node 86108028624386 20087 (.node 86107936871359 19035 (.node 86107684557759 24183 .leaf .leaf) .leaf) (.node 86162747186690 13034 (.node 86162741875514 17029 .leaf .leaf) .leaf)) (.node 86164016550847 24094 (.node 86163785012026 14018 (.node 86163157114370 15007 .leaf .leaf) .leaf) (.node 86179991933887 24118 (.node 86176039195583 6096 .leaf .leaf) .leaf))) (.node 86373758423999 27078 (.node 86364511228730 9027 (.node 86304608572351 13064 (.node 86257379139074 20093 .leaf .leaf) .leaf) (.node 86373623812922 16029 (.node 86365623767866 13016 .leaf .leaf) .leaf)) (.node 86386150363962 4043 (.node 86386095707071 29096 (.node 86374224843711 15053 .leaf .leaf) .leaf) (.node 86386231825210 6016 (.node 86386212950975 4120 .leaf .leaf) .leaf)))) (.node 86399104078783 21108 (.node 86387354850106 14020 (.node 86386533880634 12048 (.node 86386513174018 4016 (.node 86386432955327 11094 .leaf .leaf) .leaf) (.node 86387210867647 1053 (.node 86387197170623 30037 .leaf .leaf) .leaf)) (.node 86398959768511 4130 (.node 86398959768378 28022 (.node 86387354850239 28091 .leaf .leaf) .leaf) (.node 86398970385343 21095 (.node 86398965076927 17051 .leaf .leaf) .leaf))) (.node 86404378481599 8087 (.node 86399771628479 20137 (.node 86399385818047 2101 (.node 86399142878722 10083 .leaf .leaf) .leaf) (.node 86403871691711 24168 (.node 86399779164986 10048 .leaf .leaf) .leaf)) (.node 86467754742719 21115 (.node 86467689010111 21063 (.node 86424642409407 26017 .leaf .leaf) .leaf) (.node 86502192272319 11093 (.node 86502048748346 14044 .leaf .leaf) .leaf)))))

/-- part of the search tree -/
def idx3 : Idx :=
  .node 87829098025919 15045 (.node 86935968240575 2117 (.node 86695664115202 11060 (.node 86592446291458 6029 (.node 86592254137146 24062 (.node 86588967181826 24071 (.node 86532280966658 2006 .leaf .leaf) (.node 86592229626815 4114 .leaf .leaf)) (.node 86592412931007 26062 (.node 86592379114431 24167 .leaf .leaf) .leaf)) (.node 86648488416191 5069 (.node 86648064204290 4033 (.node 86635111865858 21037 .leaf .leaf) .leaf) (.node 86695462917055 29089 (.node 86669695996730 1045 .leaf .leaf) .leaf))) (.node 86841416897338 20055 (.node 86769450570687 24148 (.node 86768531627522 14061 (.node 86695764054975 1093 .leaf .leaf) .leaf) (.node 86841253977602 8053 (.node 86802865345471 26031 .leaf .leaf) .leaf)) (.node 86905903472130 27026 (.node 86905903469503 27064 (.node 86905781638079 27085 .leaf .leaf) .leaf) (.node 86906081992194 10011 (.node 86905943053247 9171 .leaf .leaf) .leaf)))) (.node 87245488870335 15099 (.node 86975034315711 24083 (.node 86974622946239 3071 (.node 86974497838015 12078 (.node 86974398223295 24084 .leaf .leaf) .leaf) (.node 86974916285375 28121 (.node 86974799827903 15051 .leaf .leaf) .leaf)) (.node 87245255234495 15101 (.node 87245178166786 29022 (.node 87124989203391 27056 .leaf .leaf) .leaf) (.node 87245405901626 29009 (.node 87245256545215 6070 .leaf .leaf) .leaf))) (.node 87615628664322 21034 (.node 87253811551746 4010 (.node 87253727204287 22052 (.node 87253628507071 4094 .leaf .leaf) .leaf) (.node 87537264186303 10101 (.node 87537094775743 10130 .leaf .leaf) .leaf)) (.node 87812195439551 11098 (.node 87812157300226 28008 (.node 87812143209986 8004 .leaf .leaf) .leaf) (.node 87813145383871 12089 (.node 87812212216767 22110 .leaf .leaf) .leaf))))) (.node 89525834044351 11087 (.node 89350017602495 8099 (.node 87885436179391 15072 (.node 87830306184706 9003 (.node 87829361087290 15013 (.node 87829323210242 4053 .leaf .leaf) .leaf) (.node 87885422678975 9139 (.node 87885324178367 6077 .leaf .leaf) .leaf)) (.node 89109261344258 7012 (.node 88301599151039 21127 (.node 88250270637570 9076 .leaf .leaf) .leaf) (.node 89349741695802 16079 (.node 89349670392634 24058 .leaf .leaf) .leaf))) (.node 89384115327935 10102 (.node 89375525393343 9111 (.node 89350724604863 28050 (.node 89350554211263 28074 .leaf .leaf) .leaf) (.node 89383874876351 10103 (.node 89375803003839 1076 .leaf .leaf) .leaf)) (.node 89508693300159 5083 (.node 89508516680639 15047 (.node 89431383891458 20071 .leaf .leaf) .leaf) (.node 89521542615999 26080 (.node 89508881257407 2107 .leaf .leaf) .leaf)))) (.node 89560052030978 14083 (.node 89543625888703 9153 (.node 89543029117754 20062 (.node 89530129014274 2004 (.node 89530003116858 14090 .leaf .leaf) .leaf) (.node 89543334845954 29063 (.node 89543053041154 3001 .leaf .leaf) .leaf)) (.node 89559968404415 5044 (.node 89547191636927 19027 (.node 89543785010111 10108 .leaf .leaf) .leaf) (.node 89559979348927 6048 (.node 89559971487234 6022 .leaf .leaf) .leaf))) (.node 89560193782586 10053 (.node 89560131198466 16058 (.node 89560117498815 15052 (.node 89560076538815 17081 .leaf .leaf) .leaf) (.node 89560193261058 4068 (.node 89560193258298 5018 .leaf .leaf) .leaf)) (.node 89560208986938 10054 (.node 89560193791711 17011 (.node 89560193782719 5085 .leaf .leaf) .leaf) (.node 89560242675202 22035 (.node 89560208987071 11080 .leaf .leaf) .leaf)))))

/-- part of the search tree -/
def idx4 : Idx :=
  .node 91359571694394 29019 (.node 90041839014847 22044 (.node 89925305127738 3021 (.node 89633490689538 24018 (.node 89611772517890 8047 (.node 89560494592959 19026 (.node 89560361423807 24187 .leaf .leaf) (.node 89561183441855 8156 .leaf .leaf)) (.node 89632987501503 9094 (.node 89632982717375 8083 .leaf .leaf) .leaf)) (.node 89701927179199 24093 (.node 89663056925631 6050 (.node 89634336166847 9159 .leaf .leaf) .leaf) (.node 89925203415999 17070 (.node 89731992474559 13059 .leaf .leaf) .leaf))) (.node 90041069097919 12085 (.node 89938451717634 16059 (.node 89938438869818 16051 (.node 89937933325247 5075 .leaf .leaf) .leaf) (.node 90041062282175 6084 (.node 89938470133250 16057 .leaf .leaf) .leaf)) (.node 90041245324223 5074 (.node 90041167535618 16064 (.node 90041102652351 2095 .leaf .leaf) .leaf) (.node 90041519526714 9055 (.node 90041280254911 28096 .leaf .leaf) .leaf)))) (.node 90509420614591 28089 (.node 90337621925378 11053 (.node 90089385123330 6024 (.node 90080385785346 5028 (.node 90042214339519 2097 .leaf .leaf) .leaf) (.node 90273163989951 19032 (.node 90187260253119 15067 .leaf .leaf) .leaf)) (.node 90338456458175 2085 (.node 90337878299583 20148 (.node 90337621988154 24057 .leaf .leaf) .leaf) (.node 90493079475002 10059 (.node 90338464781114 18011 .leaf .leaf) .leaf))) (.node 91055475807167 28047 (.node 90848891327423 26064 (.node 90510362497983 24130 (.node 90509669520319 6061 .leaf .leaf) .leaf) (.node 91055143211967 28045 (.node 90998850540479 10119 .leaf .leaf) .leaf)) (.node 91355529240066 4055 (.node 91282763633466 2041 (.node 91282436546050 17006 .leaf .leaf) .leaf) (.node 91359569272322 2 (.node 91355560235967 17077 .leaf .leaf) .leaf))))) (.node 91596702178818 24067 (.node 91360660050746 25007 (.node 91359987323706 10022 (.node 91359731536698 14053 (.node 91359731274554 12037 (.node 91359615865658 9057 .leaf .leaf) .leaf) (.node 91359826563898 8031 (.node 91359785082370 10080 .leaf .leaf) .leaf)) (.node 91360100504378 12031 (.node 91360085892610 5003 (.node 91360082353666 5034 .leaf .leaf) .leaf) (.node 91360286236162 16073 (.node 91360272732986 30018 .leaf .leaf) .leaf))) (.node 91595939140543 28078 (.node 91548778844986 16019 (.node 91540117544450 11009 (.node 91360753835522 16069 .leaf .leaf) .leaf) (.node 91595792536511 3098 (.node 91549747860415 22106 .leaf .leaf) .leaf)) (.node 91596011426618 11025 (.node 91596008281023 1060 (.node 91596007756735 28066 .leaf .leaf) .leaf) (.node 91596290806719 3064 (.node 91596011426751 12111 .leaf .leaf) .leaf)))) (.node 91634535257023 9096 (.node 91634439639999 5071 (.node 91617494848447 3037 (.node 91597150180154 9060 (.node 91596992568834 22036 .leaf .leaf) .leaf) (.node 91634439050175 15107 (.node 91618317456319 17071 .leaf .leaf) .leaf)) (.node 91634490760706 24009 (.node 91634447179266 14001 (.node 91634441147327 9160 .leaf .leaf) .leaf) (.node 91634524902335 28060 (.node 91634493772602 13015 .leaf .leaf) .leaf))) (.node 91634678190906 4026 (.node 91634662465026 5001 (.node 91634600399807 15092 (.node 91634545742783 8082 .leaf .leaf) .leaf) (.node 91634665217538 8056 (.node 91634662989314 1035 .leaf .leaf) .leaf)) (.node 91634682516282 12026 (.node 91634680681274 10030 (.node 91634680484666 10040 .leaf .leaf) .leaf) (.node 91634702046010 30013 (.node 91634682843962 30010 .leaf .leaf) .leaf)))))

/-- part of the search tree -/
def idx5 : Idx :=
  .node 91943939756858 18013 (.node 91635635409722 14054 (.node 91634978411322 29047 (.node 91634839475002 6015 (.node 91634781213631 31016 (.node 91634716335618 15031 (.node 91634711879170 1007 .leaf .leaf) (.node 91634721116986 25005 .leaf .leaf)) (.node 91634839346690 15001 (.node 91634839344063 15083 .leaf .leaf) .leaf)) (.node 91634949247802 4091 (.node 91634945446847 24134 (.node 91634943873850 23019 .leaf .leaf) .leaf) (.node 91634963796794 4037 (.node 91634961503034 29056 .leaf .leaf) .leaf))) (.node 91635319591738 16080 (.node 91635001283519 4136 (.node 91634992894911 11097 (.node 91634983916479 24194 .leaf .leaf) .leaf) (.node 91635164140346 16054 (.node 91635118396351 8137 .leaf .leaf) .leaf)) (.node 91635556438842 21012 (.node 91635544907266 14007 (.node 91635479171898 2035 .leaf .leaf) .leaf) (.node 91635558405055 24149 (.node 91635556897727 22057 .leaf .leaf) .leaf)))) (.node 91648458380223 8110 (.node 91647378740159 20143 (.node 91635656711682 4065 (.node 91635651531711 2112 (.node 91635647208962 9002 .leaf .leaf) .leaf) (.node 91647326051842 27027 (.node 91635666277311 1059 .leaf .leaf) .leaf)) (.node 91647927997375 9167 (.node 91647863313343 27095 (.node 91647563092794 20051 .leaf .leaf) .leaf) (.node 91648148591551 4104 (.node 91648000086975 5040 .leaf .leaf) .leaf))) (.node 91720887325498 9054 (.node 91683049526207 8148 (.node 91682225673018 23010 (.node 91682184844223 9090 .leaf .leaf) .leaf) (.node 91720337085242 9032 (.node 91704524362554 9036 .leaf .leaf) .leaf)) (.node 91754873773570 20078 (.node 91741909701434 22029 (.node 91721434750466 9071 .leaf .leaf) .leaf) (.node 91836463862586 20041 (.node 91836300088122 20042 .leaf .leaf) .leaf))))) (.node 92240683750335 1080 (.node 92137484276538 12035 (.node 92137111576066 10081 (.node 91974944710146 1002 (.node 91944884851647 9148 (.node 91943949524482 21042 .leaf .leaf) .leaf) (.node 92133692953535 10125 (.node 92132844852026 10046 .leaf .leaf) .leaf)) (.node 92137380074431 28061 (.node 92137197687743 12124 (.node 92137120355130 16048 .leaf .leaf) .leaf) (.node 92137471431615 24165 (.node 92137389904698 8036 .leaf .leaf) .leaf))) (.node 92240026817471 12088 (.node 92138049986050 13026 (.node 92137556038591 12068 (.node 92137499022138 8037 .leaf .leaf) .leaf) (.node 92193288639423 24188 (.node 92138158379834 13019 .leaf .leaf) .leaf)) (.node 92240190788410 28020 (.node 92240088552250 8013 (.node 92240037043714 21043 .leaf .leaf) .leaf) (.node 92240553333695 3047 (.node 92240199570234 16052 .leaf .leaf) .leaf)))) (.node 92291792982975 16096 (.node 92291568852482 31006 (.node 92275601658682 9020 (.node 92244551491074 14062 (.node 92240952841151 24196 .leaf .leaf) .leaf) (.node 92291568849855 31014 (.node 92291567735743 31021 .leaf .leaf) .leaf)) (.node 92291651296770 31003 (.node 92291651294143 31010 (.node 92291638055871 9163 .leaf .leaf) .leaf) (.node 92291655491074 31007 (.node 92291655488447 31018 .leaf .leaf) .leaf))) (.node 92317500199871 27046 (.node 92292075443002 1046 (.node 92291832110594 29082 (.node 92291808189954 4060 .leaf .leaf) .leaf) (.node 92305080538047 21106 (.node 92292075443135 6060 .leaf .leaf) .leaf)) (.node 92394911257402 30019 (.node 92394887405058 5030 (.node 92394667924994 3029 .leaf .leaf) .leaf) (.node 92395154658239 24197 (.node 92395151840191 3062 .leaf .leaf) .leaf)))))

/-- part of the search tree -/
def idx6 : Idx :=
  .node 93150786442042 11014 (.node 92583889821186 4050 (.node 92412122190783 19025 (.node 92399369412098 13006 (.node 92399167165375 15058 (.node 92395856417727 22089 (.node 92395494792706 2001 .leaf .leaf) (.node 92399009878842 9039 .leaf .leaf)) (.node 92399206290234 15029 (.node 92399167168002 15003 .leaf .leaf) .leaf)) (.node 92400208207362 12051 (.node 92400156824511 26015 (.node 92399446807487 15059 .leaf .leaf) .leaf) (.node 92412052067130 1023 (.node 92411837633471 19044 .leaf .leaf) .leaf))) (.node 92476491780922 12047 (.node 92416362238911 24172 (.node 92412334530050 10093 (.node 92412122977215 18021 .leaf .leaf) .leaf) (.node 92450924355074 21011 (.node 92434511123258 10057 .leaf .leaf) .leaf)) (.node 92583626625850 14060 (.node 92562150678018 14075 (.node 92545211257791 2108 .leaf .leaf) .leaf) (.node 92583793611711 22117 (.node 92583681610554 29055 .leaf .leaf) .leaf)))) (.node 92893492237247 10136 (.node 92807060741634 9004 (.node 92584133221890 14072 (.node 92584066503615 8136 (.node 92583923572226 18003 .leaf .leaf) .leaf) (.node 92670582150079 28070 (.node 92584688440255 22101 .leaf .leaf) .leaf)) (.node 92807833539519 22051 (.node 92807386714938 20049 (.node 92807188534207 1084 .leaf .leaf) .leaf) (.node 92892918993722 10034 (.node 92892864271162 10015 .leaf .leaf) .leaf))) (.node 92962291012543 27092 (.node 92961970803647 3041 (.node 92961856771007 4113 (.node 92961856770874 16033 .leaf .leaf) .leaf) (.node 92962238258690 27029 (.node 92962238256063 27081 .leaf .leaf) .leaf)) (.node 92962949783042 13042 (.node 92962830308287 21090 (.node 92962811368383 27093 .leaf .leaf) .leaf) (.node 93150785920514 11013 (.node 93150562505663 11076 .leaf .leaf) .leaf))))) (.node 94599178965818 24053 (.node 93760959763391 20152 (.node 93529044374463 8146 (.node 93241260397503 14106 (.node 93219509919234 27030 (.node 93151770664450 22007 .leaf .leaf) .leaf) (.node 93529031529407 9103 (.node 93528758771202 8008 .leaf .leaf) .leaf)) (.node 93760609211327 9112 (.node 93760534303679 22067 (.node 93760446291458 9012 .leaf .leaf) .leaf) (.node 93760951440319 9125 (.node 93760710923066 22016 .leaf .leaf) .leaf))) (.node 94598021275138 29046 (.node 94009565404674 27023 (.node 93761568592831 17078 (.node 93760966581762 22005 .leaf .leaf) .leaf) (.node 94597968125442 31009 (.node 94130109109183 24091 .leaf .leaf) .leaf)) (.node 94598691378111 20124 (.node 94598191534906 23017 (.node 94598089429951 29050 .leaf .leaf) .leaf) (.node 94598859543487 10129 (.node 94598697210815 12134 .leaf .leaf) .leaf)))) (.node 95633277539263 8165 (.node 95500182445570 13002 (.node 95066350965695 26033 (.node 94599319016383 26037 (.node 94599280087999 11090 .leaf .leaf) .leaf) (.node 95499924954626 4063 (.node 95427934704575 19020 .leaf .leaf) .leaf)) (.node 95531226256319 11108 (.node 95513295803194 17023 (.node 95500304470842 20023 .leaf .leaf) .leaf) (.node 95633248310207 9113 (.node 95633144765954 18002 .leaf .leaf) .leaf))) (.node 96359318442943 21085 (.node 95650245795330 13039 (.node 95634261758911 17064 (.node 95634246292415 2091 .leaf .leaf) .leaf) (.node 96075620045626 4047 (.node 95976871187258 20030 .leaf .leaf) .leaf)) (.node 96513961579322 2018 (.node 96393769210815 30002 (.node 96371854627775 20147 .leaf .leaf) .leaf) (.node 96543586472762 19010 (.node 96543585358650 19009 .leaf .leaf) .leaf)))))

/-- part of the search tree -/
def idx7 : Idx :=
  .node 98026349810490 2047 (.node 98025405174586 4 (.node 97480745243583 26070 (.node 96733778828802 31005 (.node 96543734125503 22056 (.node 96543678026554 1016 (.node 96543668917050 19014 .leaf .leaf) (.node 96543682286527 30033 .leaf .leaf)) (.node 96544794825530 20020 (.node 96544581702458 19013 .leaf .leaf) .leaf)) (.node 97136804713274 25015 (.node 97119624188863 10135 (.node 97119273639426 27039 .leaf .leaf) .leaf) (.node 97480516129727 27077 (.node 97437101219330 4032 .leaf .leaf) .leaf))) (.node 97923384824767 9176 (.node 97913736024890 8068 (.node 97814951711679 21088 (.node 97737757971391 24123 .leaf .leaf) .leaf) (.node 97922790544319 20107 (.node 97922783073215 3042 .leaf .leaf) .leaf)) (.node 98025350389250 14079 (.node 98025349075770 16041 (.node 97969531933631 17086 .leaf .leaf) .leaf) (.node 98025405109183 28116 (.node 98025369850815 15042 .leaf .leaf) .leaf)))) (.node 98025624460802 10004 (.node 98025511736255 8141 (.node 98025448690623 21103 (.node 98025448690490 10023 (.node 98025409502722 11074 .leaf .leaf) .leaf) (.node 98025448756159 8132 (.node 98025448693250 21007 .leaf .leaf) .leaf)) (.node 98025573798847 21058 (.node 98025546077119 28082 (.node 98025512129471 4124 .leaf .leaf) .leaf) (.node 98025574325762 13011 (.node 98025574323002 24027 .leaf .leaf) .leaf))) (.node 98025985170946 28031 (.node 98025745241023 6037 (.node 98025744651199 5049 (.node 98025659651007 11107 .leaf .leaf) .leaf) (.node 98025887191866 25013 (.node 98025871266751 16097 .leaf .leaf) .leaf)) (.node 98026101756863 24143 (.node 98026075280186 12036 (.node 98026004698047 1065 .leaf .leaf) .leaf) (.node 98026241938367 22086 (.node 98026235450303 24153 .leaf .leaf) .leaf))))) (.node 98038326451714 21001 (.node 98034188506047 19028 (.node 98033994322879 24103 (.node 98026456240954 2030 (.node 98026452311554 16004 (.node 98026415936447 30031 .leaf .leaf) .leaf) (.node 98033991897914 12025 (.node 98026464039871 24163 .leaf .leaf) .leaf)) (.node 98034164274664 1 (.node 98034163733306 14048 (.node 98034036790207 29090 .leaf .leaf) .leaf) (.node 98034187260863 5073 (.node 98034179461946 27112 .leaf .leaf) .leaf))) (.node 98034459696642 25001 (.node 98034380002106 20044 (.node 98034372400063 6065 (.node 98034235167546 12015 .leaf .leaf) .leaf) (.node 98034452222778 4097 (.node 98034443902466 3013 .leaf .leaf) .leaf)) (.node 98035136683522 2065 (.node 98035133010879 21125 (.node 98034696934335 5036 .leaf .leaf) .leaf) (.node 98038245973506 14074 (.node 98035143564802 11062 .leaf .leaf) .leaf)))) (.node 98171461459458 29024 (.node 98038911423423 22045 (.node 98038508114746 16045 (.node 98038341981119 2084 (.node 98038341980986 16053 .leaf .leaf) .leaf) (.node 98038774649791 2067 (.node 98038512571327 9122 .leaf .leaf) .leaf)) (.node 98103166194623 24175 (.node 98095282344762 11047 (.node 98039275934655 21112 .leaf .leaf) .leaf) (.node 98167500334551 17112 (.node 98162885809087 27090 .leaf .leaf) .leaf))) (.node 98416191099839 14099 (.node 98172435452730 23003 (.node 98172257063871 30035 (.node 98171773539263 15085 .leaf .leaf) .leaf) (.node 98193245688634 20031 (.node 98193093123586 27037 .leaf .leaf) .leaf)) (.node 98794373469119 28081 (.node 98729779811263 4111 (.node 98416869465602 14081 .leaf .leaf) .leaf) (.node 98961681634239 28118 (.node 98802907241986 14082 .leaf .leaf) .leaf)))))

/-- part of the search tree -/
def idx8 : Idx :=
  .node 100645516694330 24050 (.node 100611325121471 8100 (.node 100456702170047 11095 (.node 100400987526079 22114 (.node 98975120511935 21117 (.node 98974813216258 12007 (.node 98962755048383 24180 .leaf .leaf) (.node 98974939697978 12038 .leaf .leaf)) (.node 99481887462335 15105 (.node 99481505649466 29061 .leaf .leaf) .leaf)) (.node 100456303517186 21038 (.node 100439222932415 10133 (.node 100401663660991 22096 .leaf .leaf) .leaf) (.node 100456619531778 11004 (.node 100456388318010 11022 .leaf .leaf) .leaf))) (.node 100611068354050 2066 (.node 100610923910079 12103 (.node 100465411183551 9169 (.node 100465154874882 9078 .leaf .leaf) .leaf) (.node 100611007140799 24085 (.node 100611002880959 1067 .leaf .leaf) .leaf)) (.node 100611206566847 22039 (.node 100611144637954 10086 (.node 100611082048447 17083 .leaf .leaf) .leaf) (.node 100611321123775 5038 (.node 100611214761474 1008 .leaf .leaf) .leaf)))) (.node 100645278866946 20075 (.node 100611445445567 29025 (.node 100611432600511 25019 (.node 100611427095354 13045 (.node 100611410777023 21109 .leaf .leaf) .leaf) (.node 100611440071615 20154 (.node 100611435683330 29015 .leaf .leaf) .leaf)) (.node 100612128854975 20122 (.node 100612041429951 15055 (.node 100612022490047 12133 .leaf .leaf) .leaf) (.node 100612133180351 9156 (.node 100612131083199 22075 .leaf .leaf) .leaf))) (.node 100645428092418 8052 (.node 100645289939903 12119 (.node 100645283648447 12109 (.node 100645282075583 15074 .leaf .leaf) .leaf) (.node 100645378544575 29059 (.node 100645362619327 12098 .leaf .leaf) .leaf)) (.node 100645463544767 26043 (.node 100645451223999 22097 (.node 100645428155327 13068 .leaf .leaf) .leaf) (.node 100645505487674 3026 (.node 100645503852034 28030 .leaf .leaf) .leaf))))) (.node 100718692619199 26026 (.node 100646488593343 9164 (.node 100645797188543 21068 (.node 100645557722626 22004 (.node 100645553263551 8111 (.node 100645523903423 24184 .leaf .leaf) (.node 100645554511362 2002 .leaf .leaf)) (.node 100645765993274 8028 (.node 100645674701759 8167 .leaf .leaf) .leaf)) (.node 100646008083391 15066 (.node 100645825303487 1061 (.node 100645823599418 15025 .leaf .leaf) .leaf) (.node 100646382228415 15049 (.node 100646380264962 10077 .leaf .leaf) .leaf))) (.node 100697220338623 3088 (.node 100646526803458 6005 (.node 100646489841154 11065 (.node 100646488595970 9014 .leaf .leaf) .leaf) (.node 100671065903930 16018 (.node 100646646272959 6049 .leaf .leaf) .leaf)) (.node 100718381323199 15048 (.node 100718349669311 8170 (.node 100710240834362 28024 .leaf .leaf) .leaf) (.node 100718557945346 8051 (.node 100718518817727 7021 .leaf .leaf) .leaf)))) (.node 100726984102847 22083 (.node 100719396672447 2099 (.node 100719286047679 21111 (.node 100719110869951 26025 (.node 100718819627834 29078 .leaf .leaf) .leaf) (.node 100719394378687 22108 (.node 100719289916930 3012 .leaf .leaf) .leaf)) (.node 100726884815807 15069 (.node 100722751198010 9037 (.node 100719507428287 20097 .leaf .leaf) .leaf) (.node 100726939606530 14063 (.node 100726939341759 31011 .leaf .leaf) .leaf))) (.node 100727285112322 11007 (.node 100727112228354 24021 (.node 100727112225727 24195 (.node 100727046168066 11067 .leaf .leaf) .leaf) (.node 100727147879938 5031 (.node 100727147811775 22093 .leaf .leaf) .leaf)) (.node 100727634547647 12131 (.node 100727615673146 2045 (.node 100727286750722 15006 .leaf .leaf) .leaf) (.node 100728005549570 11054 (.node 100727761359807 28129 .leaf .leaf) .leaf)))))

/-- part of the search tree -/
def idx9 : Idx :=
  .node 101174769570751 14109 (.node 100877633213375 2044 (.node 100757110939138 2016 (.node 100731418923834 10063 (.node 100731335693114 25016 (.node 100731179783103 9100 (.node 100728236692415 15091 .leaf .leaf) (.node 100731234571199 24109 .leaf .leaf)) (.node 100731403719482 4027 (.node 100731349914426 22033 .leaf .leaf) .leaf)) (.node 100732520979970 22002 (.node 100731713835967 10126 (.node 100731454772159 14101 .leaf .leaf) .leaf) (.node 100757031769023 8160 (.node 100757031768890 8033 .leaf .leaf) .leaf))) (.node 100851600217023 8168 (.node 100757255312319 11078 (.node 100757212648250 2059 (.node 100757147835906 28034 .leaf .leaf) .leaf) (.node 100757454541759 24137 (.node 100757439664954 11 .leaf .leaf) .leaf)) (.node 100874121860031 5045 (.node 100873176699839 28085 (.node 100868780086074 13017 .leaf .leaf) .leaf) (.node 100877471735298 2007 (.node 100877370020666 14023 .leaf .leaf) .leaf)))) (.node 100934251404802 29012 (.node 100933316072383 22085 (.node 100907279799231 20 (.node 100878308695554 14012 (.node 100878252725050 14022 .leaf .leaf) .leaf) (.node 100933266658239 28135 (.node 100907512585730 10089 .leaf .leaf) .leaf)) (.node 100933970449343 27105 (.node 100933586408383 28125 (.node 100933544530879 28071 .leaf .leaf) .leaf) (.node 100934233775618 10090 (.node 100934027137983 10100 .leaf .leaf) .leaf))) (.node 101152138550786 20083 (.node 101015861154751 26069 (.node 100958821241658 20033 (.node 100934289609663 24179 .leaf .leaf) .leaf) (.node 101134908543935 15050 (.node 101015865349055 26081 .leaf .leaf) .leaf)) (.node 101160674939839 9146 (.node 101153294734271 21094 (.node 101152309990335 1085 .leaf .leaf) .leaf) (.node 101174081115071 24154 (.node 101160958579647 4122 .leaf .leaf) .leaf))))) (.node 101641874199354 9049 (.node 101325006000954 21031 (.node 101221940679615 24108 (.node 101195645539263 27096 (.node 101195537404863 9150 (.node 101182153446335 1078 .leaf .leaf) .leaf) (.node 101221317956410 6014 (.node 101221081240378 21023 .leaf .leaf) .leaf)) (.node 101268052333503 8179 (.node 101251208336319 19037 (.node 101251109966650 10066 .leaf .leaf) .leaf) (.node 101311545234367 1064 (.node 101268346854914 10084 .leaf .leaf) .leaf))) (.node 101495923102655 24078 (.node 101452997612346 2037 (.node 101414707352511 26029 (.node 101414498489279 26047 .leaf .leaf) .leaf) (.node 101495770403775 1081 (.node 101495682651071 31020 .leaf .leaf) .leaf)) (.node 101633779913663 21077 (.node 101633667781434 2062 (.node 101633523209151 7019 .leaf .leaf) .leaf) (.node 101641721041722 20061 (.node 101641713439679 3054 .leaf .leaf) .leaf)))) (.node 101916829897663 29080 (.node 101779696672258 5033 (.node 101642921071551 21104 (.node 101642921006015 22065 (.node 101642921005882 9046 .leaf .leaf) .leaf) (.node 101779415585727 6066 (.node 101775095976895 22048 .leaf .leaf) .leaf)) (.node 101818483561407 22059 (.node 101818045649722 20065 (.node 101805186110399 26024 .leaf .leaf) .leaf) (.node 101899409576762 10065 (.node 101852408075199 21120 .leaf .leaf) .leaf))) (.node 101926388850178 12011 (.node 101925687153599 24140 (.node 101925351084858 12021 (.node 101916834222906 20052 .leaf .leaf) .leaf) (.node 101926388847551 12113 (.node 101926175724479 2074 .leaf .leaf) .leaf)) (.node 102123255583679 15087 (.node 101998356484922 20059 (.node 101926529356602 12019 .leaf .leaf) .leaf) (.node 102281908474682 3024 (.node 102264722248506 20022 .leaf .leaf) .leaf)))))

/-- part of the search tree -/
def idx10 : Idx :=
  .node 103849412481983 5099 (.node 103265755354047 30034 (.node 102707265164223 28077 (.node 102286349521722 5 (.node 102286220940090 14031 (.node 102285986321343 3093 (.node 102285967446975 15090 .leaf .leaf) (.node 102286181880634 14052 .leaf .leaf)) (.node 102286221532674 5006 (.node 102286221008386 24074 .leaf .leaf) .leaf)) (.node 102287166100415 11113 (.node 102286680150975 8163 (.node 102286358369215 23020 .leaf .leaf) .leaf) (.node 102574235014079 29081 (.node 102573983817218 29043 .leaf .leaf) .leaf))) (.node 103248257504191 28113 (.node 103243742008255 21105 (.node 103239498093370 10055 (.node 103227095145986 2013 .leaf .leaf) .leaf) (.node 103244791632831 26077 (.node 103244156326847 21091 .leaf .leaf) .leaf)) (.node 103256622194178 9075 (.node 103253672940479 8122 (.node 103253460014015 20100 .leaf .leaf) .leaf) (.node 103265449628607 30036 (.node 103257277551551 27068 .leaf .leaf) .leaf)))) (.node 103368636126143 24089 (.node 103304153945023 10111 (.node 103303951635258 30012 (.node 103303864999426 24007 (.node 103303863882687 11082 .leaf .leaf) .leaf) (.node 103304128254778 24051 (.node 103304035587007 24117 .leaf .leaf) .leaf)) (.node 103363994538810 20043 (.node 103305092158399 26039 (.node 103304320930751 27048 .leaf .leaf) .leaf) (.node 103364081177402 20025 (.node 103364076983098 20024 .leaf .leaf) .leaf))) (.node 103596217032194 12010 (.node 103596146384386 12062 (.node 103518856631098 10039 (.node 103389989393343 28127 .leaf .leaf) .leaf) (.node 103596186033666 14004 (.node 103596162110399 29074 .leaf .leaf) .leaf)) (.node 103849329251263 8125 (.node 103849328137151 5091 (.node 103596517449218 14078 .leaf .leaf) .leaf) (.node 103849392690111 22062 (.node 103849386401282 3010 .leaf .leaf) .leaf))))) (.node 103850427831231 4125 (.node 103849726333887 24146 (.node 103849551090623 21092 (.node 103849479984063 6043 (.node 103849432732607 1058 (.node 103849417200575 20117 .leaf .leaf) .leaf) (.node 103849549976511 19038 (.node 103849496433599 6054 .leaf .leaf) .leaf)) (.node 103849589035834 3023 (.node 103849565180863 8089 (.node 103849565180730 16083 .leaf .leaf) .leaf) (.node 103849662567226 10028 (.node 103849602211330 20080 .leaf .leaf) .leaf))) (.node 103849839383487 8154 (.node 103849816118207 24129 (.node 103849765720890 9024 (.node 103849752548287 5051 .leaf .leaf) .leaf) (.node 103849832436671 12114 (.node 103849832436538 14057 .leaf .leaf) .leaf)) (.node 103850150679487 18023 (.node 103849883685823 1095 (.node 103849865403906 29053 .leaf .leaf) .leaf) (.node 103850366686010 18 (.node 103850195702719 9118 .leaf .leaf) .leaf)))) (.node 103901090501567 8123 (.node 103850572403647 21087 (.node 103850534196159 29034 (.node 103850439693247 20120 (.node 103850436809663 21071 .leaf .leaf) .leaf) (.node 103850535441343 21047 (.node 103850534261695 20115 .leaf .leaf) .leaf)) (.node 103900952089535 28134 (.node 103900917227010 24006 (.node 103900865647551 15106 .leaf .leaf) .leaf) (.node 103901089586690 24010 (.node 103901089059775 4092 .leaf .leaf) .leaf))) (.node 103901370605058 24076 (.node 103901159707583 2103 (.node 103901138473919 8130 (.node 103901128711682 4001 .leaf .leaf) .leaf) (.node 103901369228802 11066 (.node 103901265941439 15056 .leaf .leaf) .leaf)) (.node 103902073803578 8027 (.node 103901440594879 21097 (.node 103901377549247 3039 .leaf .leaf) .leaf) (.node 103902128526271 20138 (.node 103902078128954 14033 .leaf .leaf) .leaf)))))

/-- part of the search tree -/
def idx11 : Idx :=
  .node 104456124584895 6079 (.node 104412239582010 1010 (.node 104026460345279 22109 (.node 103974119232314 15022 (.node 103931091768255 3063 (.node 103930936775615 20153 (.node 103922864378815 3073 .leaf .leaf) (.node 103930981995455 29098 .leaf .leaf)) (.node 103932138577410 3009 (.node 103931154355135 10131 .leaf .leaf) .leaf)) (.node 103986781119959 17114 (.node 103975088247610 2038 (.node 103974386488255 2077 .leaf .leaf) .leaf) (.node 103991221313026 11064 (.node 103987859051455 27075 .leaf .leaf) .leaf))) (.node 104219199626754 4052 (.node 104141608866751 24099 (.node 104141411931071 8181 (.node 104141385913279 3085 .leaf .leaf) .leaf) (.node 104142662816703 26063 (.node 104141656642495 16107 .leaf .leaf) .leaf)) (.node 104412190694914 22009 (.node 104412064865794 13041 (.node 104223140896258 8007 .leaf .leaf) .leaf) (.node 104412229751743 22095 (.node 104412198425535 10114 .leaf .leaf) .leaf)))) (.node 104429796679170 1037 (.node 104429370037183 1074 (.node 104413163115455 22092 (.node 104412486128575 9143 (.node 104412240827327 19 .leaf .leaf) .leaf) (.node 104429341332415 11079 (.node 104429232476986 10019 .leaf .leaf) .leaf)) (.node 104429546918847 16089 (.node 104429440687618 29013 (.node 104429419451327 16090 .leaf .leaf) .leaf) (.node 104429685986239 14102 (.node 104429650203583 28051 .leaf .leaf) .leaf))) (.node 104455148232194 9011 (.node 104454998610879 29076 (.node 104430354783746 1038 (.node 104430262965050 14039 .leaf .leaf) .leaf) (.node 104455148229567 9147 (.node 104455007591938 16071 .leaf .leaf) .leaf)) (.node 104455422825407 24138 (.node 104455189257730 4059 (.node 104455189254970 8014 .leaf .leaf) .leaf) (.node 104456018222594 28035 (.node 104455644074810 12018 .leaf .leaf) .leaf))))) (.node 105202479879103 20127 (.node 104855224931263 28115 (.node 104592897364794 11038 (.node 104592437629887 8180 (.node 104503369225151 15097 (.node 104456230359999 17110 .leaf .leaf) .leaf) (.node 104592714391042 3007 (.node 104592630567738 20050 .leaf .leaf) .leaf)) (.node 104811924181951 2105 (.node 104614366106559 28084 (.node 104613907944383 28132 .leaf .leaf) .leaf) (.node 104812616373183 26046 (.node 104812606873090 11069 .leaf .leaf) .leaf))) (.node 104936442844095 16101 (.node 104923584615359 15103 (.node 104923330928130 24075 (.node 104923307004863 24170 .leaf .leaf) .leaf) (.node 104936034948031 31015 (.node 104924276020159 18020 .leaf .leaf) .leaf)) (.node 105073896543034 23006 (.node 105073895297983 8172 (.node 105073654783490 14013 .leaf .leaf) .leaf) (.node 105104349025215 24080 (.node 105074596205503 4085 .leaf .leaf) .leaf)))) (.node 105241429496767 29057 (.node 105241158508034 20015 (.node 105240977626047 1062 (.node 105240950234626 15040 (.node 105240923558847 5078 .leaf .leaf) .leaf) (.node 105241119380415 15080 (.node 105241056793402 20036 .leaf .leaf) .leaf)) (.node 105241295737791 24087 (.node 105241208970754 13033 (.node 105241169515455 4121 .leaf .leaf) .leaf) (.node 105241401840575 6094 (.node 105241332437951 24115 .leaf .leaf) .leaf))) (.node 105533216284162 21009 (.node 105266928309050 2061 (.node 105242103602690 24013 (.node 105242077582271 28111 .leaf .leaf) .leaf) (.node 105533114569663 5062 (.node 105378334987199 22100 .leaf .leaf) .leaf)) (.node 105554510241282 12004 (.node 105554437559231 21102 (.node 105533228733242 21017 .leaf .leaf) .leaf) (.node 105554651993023 8178 (.node 105554651468735 2071 .leaf .leaf) .leaf)))))

/-- part of the search tree -/
def idx12 : Idx :=
  .node 108698857460671 10104 (.node 107822394725311 8076 (.node 106516724667327 1094 (.node 106005672451586 4057 (.node 105679068550079 6087 (.node 105555529847743 2093 (.node 105554858234682 17 .leaf .leaf) (.node 105555645846463 4119 .leaf .leaf)) (.node 105906854515514 10069 (.node 105679382532922 1026 .leaf .leaf) .leaf)) (.node 106516499420095 4105 (.node 106031753286591 6078 (.node 106005794741762 11052 .leaf .leaf) .leaf) (.node 106516662080314 4024 (.node 106516558140218 18006 .leaf .leaf) .leaf))) (.node 106517022790458 9030 (.node 106516923634623 4134 (.node 106516763794946 4013 (.node 106516739871546 14050 .leaf .leaf) .leaf) (.node 106517004309439 6076 (.node 106517002015679 20151 .leaf .leaf) .leaf)) (.node 106963722198530 29023 (.node 106963243979711 12096 (.node 106517708886842 4025 .leaf .leaf) .leaf) (.node 107822256640826 24042 (.node 107788317446970 2055 .leaf .leaf) .leaf)))) (.node 108299206218687 8151 (.node 108217307586050 14066 (.node 108024273392442 3 (.node 107823291522562 24001 (.node 107822660867007 20101 .leaf .leaf) .leaf) (.node 108132542731199 27109 (.node 108088603071423 26057 .leaf .leaf) .leaf)) (.node 108260768043967 9127 (.node 108260276917183 13061 (.node 108217570844162 14010 .leaf .leaf) .leaf) (.node 108261509321663 22047 (.node 108261074621375 5047 .leaf .leaf) .leaf))) (.node 108416122639295 16103 (.node 108415139339778 15008 (.node 108415099687871 8183 (.node 108299206221314 8009 .leaf .leaf) .leaf) (.node 108415978066879 10139 (.node 108415300817855 13054 .leaf .leaf) .leaf)) (.node 108617645186562 26001 (.node 108616960725951 26022 (.node 108416122641922 16011 .leaf .leaf) .leaf) (.node 108698505466815 27073 (.node 108695150943746 20086 .leaf .leaf) .leaf))))) (.node 111701729497914 4034 (.node 111348500288447 8120 (.node 109583935624127 26056 (.node 109055050339130 16078 (.node 109054881190714 16077 (.node 108788711772986 29004 .leaf .leaf) .leaf) (.node 109583186285503 26030 (.node 109432847487802 11042 .leaf .leaf) .leaf)) (.node 109872078347778 4019 (.node 109871865222079 4132 (.node 109870868878271 4135 .leaf .leaf) .leaf) (.node 111322675827647 1086 (.node 111296864932799 26032 .leaf .leaf) .leaf))) (.node 111632045921215 28139 (.node 111490661899778 3032 (.node 111490155044354 13044 (.node 111421858342359 17115 .leaf .leaf) .leaf) (.node 111632030716863 8142 (.node 111631956923194 16075 .leaf .leaf) .leaf)) (.node 111632207076866 7011 (.node 111632140227519 29036 (.node 111632054244154 9056 .leaf .leaf) .leaf) (.node 111632482786818 20092 (.node 111632310358975 21116 .leaf .leaf) .leaf)))) (.node 111808007132095 27074 (.node 111807919906306 15005 (.node 111807903650751 9142 (.node 111807902539266 8044 (.node 111807900439487 4108 .leaf .leaf) .leaf) (.node 111807915774778 4041 (.node 111807903653378 9010 .leaf .leaf) .leaf)) (.node 111807982621631 12101 (.node 111807955227583 4089 (.node 111807955227450 10037 .leaf .leaf) .leaf) (.node 111807986291514 8025 (.node 111807982687034 14045 .leaf .leaf) .leaf))) (.node 111808173200319 15086 (.node 111808124375999 9170 (.node 111808123851711 12070 (.node 111808061788986 17025 .leaf .leaf) .leaf) (.node 111808165860154 8029 (.node 111808128376322 9066 .leaf .leaf) .leaf)) (.node 111808300733375 29044 (.node 111808242930490 16086 (.node 111808182113215 15084 .leaf .leaf) .leaf) (.node 111808401726978 16070 (.node 111808326619962 10014 .leaf .leaf) .leaf)))))

/-- part of the search tree -/
def idx13 : Idx :=
  .node 112211866506042 16082 (.node 111929367679802 24048 (.node 111809016452031 12074 (.node 111808554750911 12132 (.node 111808420664122 11023 (.node 111808416341506 20085 (.node 111808412341183 8101 .leaf .leaf) (.node 111808419812287 24164 .leaf .leaf)) (.node 111808443601855 27069 (.node 111808424071994 14015 .leaf .leaf) .leaf)) (.node 111808725078842 1013 (.node 111808716952511 21050 (.node 111808651812354 31008 .leaf .leaf) .leaf) (.node 111808822203327 9114 (.node 111808792974138 21013 .leaf .leaf) .leaf))) (.node 111846716494783 9101 (.node 111809034867647 9105 (.node 111809021170490 24040 (.node 111809018289666 9067 .leaf .leaf) .leaf) (.node 111809266275263 24112 (.node 111809127404346 10050 .leaf .leaf) .leaf)) (.node 111864389850047 28098 (.node 111847045026751 10116 (.node 111846794286015 21122 .leaf .leaf) .leaf) (.node 111928453583807 2114 (.node 111864466461631 6068 .leaf .leaf) .leaf)))) (.node 112177668054530 28001 (.node 112036124515842 20009 (.node 112014506808255 20149 (.node 112014483608511 8102 (.node 112014059525055 2109 .leaf .leaf) .leaf) (.node 112035683587007 26034 (.node 112015249071618 14005 .leaf .leaf) .leaf)) (.node 112126610723775 24132 (.node 112066806633407 22061 (.node 112066712130495 22081 .leaf .leaf) .leaf) (.node 112177506770434 14073 (.node 112160097260479 26027 .leaf .leaf) .leaf))) (.node 112203543827258 15015 (.node 112203185148863 16104 (.node 112203135540738 27035 (.node 112203039527871 20139 .leaf .leaf) .leaf) (.node 112203310256954 15 (.node 112203260842943 28099 .leaf .leaf) .leaf)) (.node 112204158161855 26079 (.node 112204151086594 20082 (.node 112204151083834 13021 .leaf .leaf) .leaf) (.node 112211679337986 2064 (.node 112204389962687 8184 .leaf .leaf) .leaf))))) (.node 112625153233722 23015 (.node 112473781722626 21004 (.node 112345044177855 5095 (.node 112234305442751 28073 (.node 112212172231615 1072 (.node 112212130943935 10107 .leaf .leaf) .leaf) (.node 112284862010303 15076 (.node 112238605325247 21093 .leaf .leaf) .leaf)) (.node 112345877208578 28013 (.node 112345771234239 24090 (.node 112345654186943 27066 .leaf .leaf) .leaf) (.node 112473620176386 21010 (.node 112345979507514 28026 .leaf .leaf) .leaf))) (.node 112623998751679 26013 (.node 112473883434498 8050 (.node 112473844306746 1048 (.node 112473843782591 28068 .leaf .leaf) .leaf) (.node 112474163532602 21022 (.node 112474126769666 1031 .leaf .leaf) .leaf)) (.node 112624169276351 6041 (.node 112624168162239 6031 (.node 112624167640578 4070 .leaf .leaf) .leaf) (.node 112624464387586 28004 (.node 112624381219775 24086 .leaf .leaf) .leaf)))) (.node 113243540247354 11045 (.node 113191383487423 26059 (.node 112650927625151 6046 (.node 112628758896130 28028 (.node 112628755092415 3067 .leaf .leaf) .leaf) (.node 113191304451007 26053 (.node 113190984242111 8126 .leaf .leaf) .leaf)) (.node 113192086560258 20070 (.node 113191388664767 21053 (.node 113191386305338 4072 .leaf .leaf) .leaf) (.node 113192107138562 28014 (.node 113192088064959 8092 .leaf .leaf) .leaf))) (.node 113367479964607 2072 (.node 113337171860994 21008 (.node 113337070146362 21016 (.node 113285908550458 15012 .leaf .leaf) .leaf) (.node 113367160083391 10105 (.node 113367134917567 12105 .leaf .leaf) .leaf)) (.node 113368094299071 8105 (.node 113368012641215 6051 (.node 113367854437178 16084 .leaf .leaf) .leaf) (.node 113376771658554 6 (.node 113375747593018 24056 .leaf .leaf) .leaf)))))

/-- part of the search tree -/
def idx14 : Idx :=
  .node 114446233916218 14035 (.node 113793383486399 29101 (.node 113697746604858 22028 (.node 113586528015162 20021 (.node 113440532880898 16006 (.node 113422862668735 10113 (.node 113376771661314 16014 .leaf .leaf) (.node 113431582495546 22018 .leaf .leaf)) (.node 113534660400063 19015 (.node 113445382804415 26011 .leaf .leaf) .leaf)) (.node 113684863275967 11077 (.node 113647364231994 2021 (.node 113646586139975 29087 .leaf .leaf) .leaf) (.node 113685028560386 5008 (.node 113685025084351 2100 .leaf .leaf) .leaf))) (.node 113792414470970 17019 (.node 113720351417815 17060 (.node 113719423950338 29001 (.node 113698209682234 23013 .leaf .leaf) .leaf) (.node 113792266493442 13007 (.node 113792257577786 10033 .leaf .leaf) .leaf)) (.node 113792720196543 1087 (.node 113792681726778 23004 (.node 113792418403130 17014 .leaf .leaf) .leaf) (.node 113792731599807 24127 (.node 113792722361858 11056 .leaf .leaf) .leaf)))) (.node 114140070892479 8096 (.node 113900544545727 17093 (.node 113899812576770 9072 (.node 113899653845951 26049 (.node 113899645129663 10120 .leaf .leaf) .leaf) (.node 113900429071295 26068 (.node 113900204348351 10099 .leaf .leaf) .leaf)) (.node 113951363063298 20007 (.node 113930822439871 2070 (.node 113925825715714 11055 .leaf .leaf) .leaf) (.node 113952297278978 11072 (.node 113951374988223 8118 .leaf .leaf) .leaf))) (.node 114294772945722 5021 (.node 114204995769279 22073 (.node 114179614921663 1088 (.node 114178883736511 9121 .leaf .leaf) .leaf) (.node 114277667984186 29071 (.node 114277661430719 27058 .leaf .leaf) .leaf)) (.node 114295112684479 21126 (.node 114294949568002 5009 (.node 114294847853503 5066 .leaf .leaf) .leaf) (.node 114295198405567 13056 (.node 114295192900543 5060 .leaf .leaf) .leaf))))) (.node 114784311464762 8024 (.node 114638445237050 8026 (.node 114617072047039 9092 (.node 114531429932546 12012 (.node 114531429929919 12115 (.node 114446233918978 20090 .leaf .leaf) .leaf) (.node 114616970400703 8093 (.node 114595846118914 17042 .leaf .leaf) .leaf)) (.node 114634415103490 5011 (.node 114634261749250 5032 (.node 114633987609535 12116 .leaf .leaf) .leaf) (.node 114638430491583 31012 (.node 114635197076415 12130 .leaf .leaf) .leaf))) (.node 114694393189311 29011 (.node 114638827049919 12097 (.node 114638790284223 12107 (.node 114638523028282 10038 .leaf .leaf) .leaf) (.node 114694279814658 2063 (.node 114694121676290 29052 .leaf .leaf) .leaf)) (.node 114698811167679 26052 (.node 114694561158079 6081 (.node 114694548313023 9104 .leaf .leaf) .leaf) (.node 114707099833279 20142 (.node 114698864120767 12092 .leaf .leaf) .leaf)))) (.node 114982439900095 24150 (.node 114904811000767 20103 (.node 114788870738879 10122 (.node 114788694184895 10123 (.node 114785307808570 8021 .leaf .leaf) .leaf) (.node 114904718463802 9083 (.node 114789262581250 13030 .leaf .leaf) .leaf)) (.node 114921817199418 1012 (.node 114905083761599 28101 (.node 114904844686271 30027 .leaf .leaf) .leaf) (.node 114922258125626 4076 (.node 114922014793218 4018 .leaf .leaf) .leaf))) (.node 115837797424642 28029 (.node 115072509760447 13050 (.node 115072509760314 10072 (.node 115068043681282 5012 .leaf .leaf) .leaf) (.node 115836842824506 14024 (.node 115527848514362 29083 .leaf .leaf) .leaf)) (.node 116025992502786 13037 (.node 116025984507394 22010 (.node 116025558127551 3070 .leaf .leaf) .leaf) (.node 116026280661951 21074 (.node 116026043880250 21044 .leaf .leaf) .leaf)))))

/-- part of the search tree -/
def idx15 : Idx :=
  .node 118989085758399 15088 (.node 118087415452607 1070 (.node 118087145837503 21075 (.node 118074481136575 3060 (.node 116683122499074 15037 (.node 116344278963002 20040 (.node 116090489230271 6056 .leaf .leaf) (.node 116592655356730 11041 .leaf .leaf)) (.node 116730180424639 15095 (.node 116730172101567 22112 .leaf .leaf) .leaf)) (.node 118075175036375 17087 (.node 118074482774975 8094 (.node 118074481660863 6082 .leaf .leaf) .leaf) (.node 118087144264639 29065 (.node 118075465880511 9108 .leaf .leaf) .leaf))) (.node 118087366038463 15075 (.node 118087217009599 22050 (.node 118087198727682 12049 (.node 118087167726394 24046 .leaf .leaf) .leaf) (.node 118087340875266 3004 (.node 118087303975871 20108 .leaf .leaf) .leaf)) (.node 118087368266687 5058 (.node 118087367676863 28075 (.node 118087366565378 8042 .leaf .leaf) .leaf) (.node 118087405622207 17074 (.node 118087381767103 3079 .leaf .leaf) .leaf)))) (.node 118088355107642 12042 (.node 118087885282818 11075 (.node 118087647583746 11001 (.node 118087542919994 11032 (.node 118087428494271 8116 .leaf .leaf) .leaf) (.node 118087676678970 25017 (.node 118087649022778 4074 .leaf .leaf) .leaf)) (.node 118088256279487 8117 (.node 118088244351802 14047 (.node 118087992759231 24141 .leaf .leaf) .leaf) (.node 118088353665983 9140 (.node 118088263357242 3028 .leaf .leaf) .leaf))) (.node 118821582033855 27082 (.node 118436155708218 9059 (.node 118088483951551 5046 (.node 118088356221887 30024 .leaf .leaf) .leaf) (.node 118564761787906 6023 (.node 118559778952127 26038 .leaf .leaf) .leaf)) (.node 118822002709439 9154 (.node 118821660939199 3056 (.node 118821584131007 3053 .leaf .leaf) .leaf) (.node 118972134216639 28038 (.node 118972067238847 6036 .leaf .leaf) .leaf))))) (.node 118989607820802 21033 (.node 118989310809023 1050 (.node 118989208703935 28120 (.node 118989140546495 12118 (.node 118989114987455 15081 (.node 118989095261119 28079 .leaf .leaf) .leaf) (.node 118989192451007 21062 (.node 118989183865791 13060 .leaf .leaf) .leaf)) (.node 118989309170623 18024 (.node 118989247110658 9081 (.node 118989217420223 29032 .leaf .leaf) .leaf) (.node 118989310808890 12040 (.node 118989309697538 1036 .leaf .leaf) .leaf))) (.node 118989363043842 29064 (.node 118989348822530 12002 (.node 118989348754234 30004 (.node 118989317428159 22103 .leaf .leaf) .leaf) (.node 118989358650303 8079 (.node 118989358584767 28092 .leaf .leaf) .leaf)) (.node 118989486052287 3055 (.node 118989480022975 15062 (.node 118989379818431 28097 .leaf .leaf) .leaf) (.node 118989601657791 1092 (.node 118989487690687 1063 .leaf .leaf) .leaf)))) (.node 119062331872191 12108 (.node 118990332122047 12093 (.node 118989813404607 5067 (.node 118989761762239 3046 (.node 118989619811263 8143 .leaf .leaf) .leaf) (.node 118990312985535 3045 (.node 118989935891391 28086 .leaf .leaf) .leaf)) (.node 119062100008450 22003 (.node 119054053430074 9021 (.node 119053773263674 6020 .leaf .leaf) .leaf) (.node 119062196671290 22014 (.node 119062186644282 11027 .leaf .leaf) .leaf))) (.node 119063308424127 22060 (.node 119062643364799 24102 (.node 119062612759354 25014 (.node 119062363201026 11063 .leaf .leaf) .leaf) (.node 119063308358458 11033 (.node 119062649131834 22015 .leaf .leaf) .leaf)) (.node 119148085990335 9130 (.node 119113875611138 4021 (.node 119113824624130 4020 .leaf .leaf) .leaf) (.node 119148262612482 9061 (.node 119148160897983 12137 .leaf .leaf) .leaf)))))

/-- part of the search tree -/
def idx16 : Idx :=
  .node 119406239568831 27100 (.node 119178155479999 10121 (.node 119156862243642 29005 (.node 119156810470335 26019 (.node 119156685099967 6090 (.node 119156671730490 29018 (.node 119156588172090 29017 .leaf .leaf) (.node 119156675924794 5019 .leaf .leaf)) (.node 119156771869498 11026 (.node 119156750832442 4042 .leaf .leaf) .leaf)) (.node 119156828626434 29073 (.node 119156813419455 24193 (.node 119156812895034 14041 .leaf .leaf) .leaf) (.node 119156852478911 28067 (.node 119156833276730 11035 .leaf .leaf) .leaf))) (.node 119157710216706 14084 (.node 119157101780482 24065 (.node 119157094437690 11034 (.node 119157093323711 12066 .leaf .leaf) .leaf) (.node 119157132645178 13024 (.node 119157108855610 30005 .leaf .leaf) .leaf)) (.node 119157797707266 14069 (.node 119157797638970 24031 (.node 119157792726530 4008 .leaf .leaf) .leaf) (.node 119161147514370 2003 (.node 119157801964479 11088 .leaf .leaf) .leaf)))) (.node 119307416916927 20135 (.node 119290728502207 21065 (.node 119204368176063 13067 (.node 119196068830722 12056 (.node 119179272541119 9166 .leaf .leaf) .leaf) (.node 119255636726719 24161 (.node 119255371240383 20123 .leaf .leaf) .leaf)) (.node 119303161533375 21069 (.node 119303121949631 21082 (.node 119290941627906 21039 .leaf .leaf) .leaf) (.node 119306999780287 20134 (.node 119303826529794 9074 .leaf .leaf) .leaf))) (.node 119333891300866 16001 (.node 119321010721727 12099 (.node 119320304639490 12057 (.node 119307456500671 20141 .leaf .leaf) .leaf) (.node 119333195043642 16035 (.node 119332681569215 9119 .leaf .leaf) .leaf)) (.node 119406209490434 8043 (.node 119405963006778 11046 (.node 119367305876415 24177 .leaf .leaf) .leaf) (.node 119406239568698 24033 (.node 119406215254975 11092 .leaf .leaf) .leaf))))) (.node 119672505258943 14093 (.node 119551909581759 19016 (.node 119517782102975 21128 (.node 119492805088191 14113 (.node 119466090192386 8006 (.node 119406915310527 27076 .leaf .leaf) (.node 119466351022906 14056 .leaf .leaf)) (.node 119517448983354 25008 (.node 119517365424954 20064 .leaf .leaf) .leaf)) (.node 119517909900802 4014 (.node 119517886111234 21035 (.node 119517873200642 5007 .leaf .leaf) .leaf) (.node 119518570765826 8054 (.node 119518361768762 25004 .leaf .leaf) .leaf))) (.node 119612119080450 1004 (.node 119565292557247 28123 (.node 119564693558207 20146 (.node 119560859571135 8159 .leaf .leaf) .leaf) (.node 119612095157050 14021 (.node 119569455338298 24028 .leaf .leaf) .leaf)) (.node 119625949074367 9106 (.node 119616335797762 8058 (.node 119612392821562 1019 .leaf .leaf) .leaf) (.node 119672489137087 20121 (.node 119663670547391 16106 .leaf .leaf) .leaf)))) (.node 119813982543362 24020 (.node 119779583680002 20005 (.node 119779414531586 14068 (.node 119719458132927 26071 (.node 119673193714623 14112 .leaf .leaf) .leaf) (.node 119779583153087 1073 (.node 119779466433471 15057 .leaf .leaf) .leaf)) (.node 119779782644671 10097 (.node 119779622804994 14009 (.node 119779598881594 20053 .leaf .leaf) .leaf) (.node 119813944529855 24106 (.node 119780606104511 29037 .leaf .leaf) .leaf))) (.node 119835601032127 27045 (.node 119814714512319 28131 (.node 119814264345535 12087 (.node 119814223057855 28105 .leaf .leaf) .leaf) (.node 119835469239231 19046 (.node 119835457377215 21079 .leaf .leaf) .leaf)) (.node 119840697439167 22077 (.node 119840032445375 18019 (.node 119839752278975 3097 .leaf .leaf) .leaf) (.node 119964266746815 9174 (.node 119964129776575 22069 .leaf .leaf) .leaf)))))

/-- part of the search tree -/
def idx17 : Idx :=
  .node 120359691440954 1028 (.node 120184294822847 20119 (.node 120028984595391 14095 (.node 119977023853503 12075 (.node 119965251493378 9016 (.node 119964549731130 1020 (.node 119964380844991 26058 .leaf .leaf) (.node 119964566967231 27080 .leaf .leaf)) (.node 119965409170234 9040 (.node 119965256930239 26072 .leaf .leaf) .leaf)) (.node 120007258430978 12058 (.node 120007079449402 25012 (.node 119977113047999 29038 .leaf .leaf) .leaf) (.node 120028974243330 12050 (.node 120028706984762 11030 .leaf .leaf) .leaf))) (.node 120059075777471 28088 (.node 120029685568447 24173 (.node 120029007207938 11058 (.node 120028986758079 21066 .leaf .leaf) .leaf) (.node 120045734157826 13038 (.node 120045729960762 13010 .leaf .leaf) .leaf)) (.node 120183173111298 20001 (.node 120162123731770 9025 (.node 120157823259450 4073 .leaf .leaf) .leaf) (.node 120183629831682 9073 (.node 120183310081538 20006 .leaf .leaf) .leaf)))) (.node 120359196450306 10092 (.node 120286261498682 14089 (.node 120210064626490 15023 (.node 120196514730943 21098 (.node 120188589792770 12060 .leaf .leaf) .leaf) (.node 120286248129471 5041 (.node 120260899656639 11110 .leaf .leaf) .leaf)) (.node 120320764761023 21083 (.node 120286672278463 29069 (.node 120286327231423 1075 .leaf .leaf) .leaf) (.node 120359180325823 4133 (.node 120320967136191 15104 .leaf .leaf) .leaf))) (.node 120359403740674 29049 (.node 120359271486399 18016 (.node 120359266767674 17034 (.node 120359235113919 8133 .leaf .leaf) .leaf) (.node 120359341678082 16066 (.node 120359275945474 7001 .leaf .leaf) .leaf)) (.node 120359585010623 19045 (.node 120359443387194 14016 (.node 120359404262335 14100 .leaf .leaf) .leaf) (.node 120359606509058 10085 (.node 120359594054458 29016 .leaf .leaf) .leaf))))) (.node 120870367878658 2009 (.node 120561306850106 14043 (.node 120360388484610 20094 (.node 120359812617018 4098 (.node 120359717131066 8040 (.node 120359709856570 8 .leaf .leaf) .leaf) (.node 120360383569410 14077 (.node 120359861900223 29051 .leaf .leaf) .leaf)) (.node 120531482596287 14103 (.node 120527227212735 8176 (.node 120527187628991 8169 .leaf .leaf) .leaf) (.node 120540777108415 2086 (.node 120531522182658 12052 .leaf .leaf) .leaf))) (.node 120669765325759 8161 (.node 120579436139322 30016 (.node 120578385007418 24060 (.node 120566333788986 9044 .leaf .leaf) .leaf) (.node 120668681035266 8062 (.node 120625974694714 1015 .leaf .leaf) .leaf)) (.node 120703326638906 9051 (.node 120694450770879 9093 (.node 120689979448834 20012 .leaf .leaf) .leaf) (.node 120870363684354 2008 (.node 120870278943546 2029 .leaf .leaf) .leaf)))) (.node 120969357185983 21114 (.node 120883429400066 8048 (.node 120871489590207 9124 (.node 120870830363583 9115 (.node 120870505373186 14002 .leaf .leaf) .leaf) (.node 120883317530114 4005 (.node 120871489655610 14025 .leaf .leaf) .leaf)) (.node 120891980207039 29014 (.node 120891838452671 22080 (.node 120883683087295 8103 .leaf .leaf) .leaf) (.node 120969227031354 4071 (.node 120969065681855 9161 .leaf .leaf) .leaf))) (.node 120969589314362 14027 (.node 120969577583418 14026 (.node 120969569260479 3075 (.node 120969459946431 4093 .leaf .leaf) .leaf) (.node 120969586889663 1066 (.node 120969577583551 8121 .leaf .leaf) .leaf)) (.node 120970167475714 4011 (.node 120969948648383 8107 (.node 120969593574335 22094 .leaf .leaf) .leaf) (.node 121021111751615 9173 (.node 120970258374146 6027 .leaf .leaf) .leaf)))))

/-- part of the search tree -/
def idx18 : Idx :=
  .node 122249477840386 9005 (.node 121326105615874 12008 (.node 121149549925178 5027 (.node 121124197847999 27062 (.node 121123927580162 29088 (.node 121072648475450 15027 (.node 121072227144506 30017 .leaf .leaf) (.node 121123911979967 27060 .leaf .leaf)) (.node 121124190901050 24047 (.node 121123947568642 29027 .leaf .leaf) .leaf)) (.node 121141407536063 3086 (.node 121141025723194 22027 (.node 121140950818306 22006 .leaf .leaf) .leaf) (.node 121149540750138 5023 (.node 121141413303098 22013 .leaf .leaf) .leaf))) (.node 121317506962234 9038 (.node 121240206267327 6086 (.node 121188120089402 24059 (.node 121150658597690 14030 .leaf .leaf) .leaf) (.node 121317221096962 29054 (.node 121317053649855 15078 .leaf .leaf) .leaf)) (.node 121325551181314 12054 (.node 121325546656570 15024 (.node 121318092329786 1027 .leaf .leaf) .leaf) (.node 121326105613247 12102 (.node 121325987648314 4077 .leaf .leaf) .leaf)))) (.node 121776782597634 2011 (.node 121489891021626 15017 (.node 121338944770874 9034 (.node 121338939268610 4002 (.node 121326756189119 12106 .leaf .leaf) .leaf) (.node 121356155900863 19042 (.node 121355612541887 19040 .leaf .leaf) .leaf)) (.node 121665353962431 14097 (.node 121566227485498 4075 (.node 121523640095679 12100 .leaf .leaf) .leaf) (.node 121678274646842 16081 (.node 121666058542594 14064 .leaf .leaf) .leaf))) (.node 121944286322178 20013 (.node 121935519765439 8145 (.node 121914119836607 8173 (.node 121862681943554 20073 .leaf .leaf) .leaf) (.node 121944184607546 20047 (.node 121935706149823 8157 .leaf .leaf) .leaf)) (.node 121944562619194 14055 (.node 121944548004799 14105 (.node 121944529654586 29007 .leaf .leaf) .leaf) (.node 122185053328319 10137 (.node 121996672455482 10070 .leaf .leaf) .leaf))))) (.node 123070512845759 9162 (.node 122519635317562 4084 (.node 122426277385018 2034 (.node 122266669437887 1054 (.node 122266418634242 1034 (.node 122266408869378 1003 .leaf .leaf) .leaf) (.node 122377976304442 20032 (.node 122377967656450 20011 .leaf .leaf) .leaf)) (.node 122450990751234 21041 (.node 122442745863682 11061 (.node 122442478605247 2073 .leaf .leaf) .leaf) (.node 122468272264127 9116 (.node 122451824434690 28032 .leaf .leaf) .leaf))) (.node 122614199505855 22090 (.node 122520757031738 4083 (.node 122519811939842 4017 (.node 122519772812223 4137 .leaf .leaf) .leaf) (.node 122579764859839 30030 (.node 122579733140415 22068 .leaf .leaf) .leaf)) (.node 122615138636735 7020 (.node 122614562902842 4079 (.node 122614544552895 28069 .leaf .leaf) .leaf) (.node 122910935765951 2088 (.node 122657527190463 31023 .leaf .leaf) .leaf)))) (.node 123649388270527 5088 (.node 123623525604866 16065 (.node 123473118057407 14107 (.node 123473037972415 14108 (.node 123070512848386 9013 .leaf .leaf) .leaf) (.node 123550780707642 22024 (.node 123474239771583 5084 .leaf .leaf) .leaf)) (.node 123649350524418 9080 (.node 123649221743551 3094 (.node 123649123701695 21099 .leaf .leaf) .leaf) (.node 123649364415423 5042 (.node 123649356944319 8090 .leaf .leaf) .leaf))) (.node 123941240394554 11049 (.node 123649825919935 21070 (.node 123649770607551 2092 (.node 123649615355394 18015 .leaf .leaf) .leaf) (.node 123757711938495 12117 (.node 123736247063487 24113 .leaf .leaf) .leaf)) (.node 124409354149378 9009 (.node 124104488279554 20016 (.node 124005846700858 2019 .leaf .leaf) .leaf) (.node 125557187105594 10021 (.node 125556592038714 10073 .leaf .leaf) .leaf)))))

/-- part of the search tree -/
def idx19 : Idx :=
  .node 128850756850623 5080 (.node 127463684002751 19050 (.node 127034188583871 29092 (.node 127012574745402 14037 (.node 125951228400575 24178 (.node 125762249773882 20054 (.node 125753932075834 20026 .leaf .leaf) (.node 125789153415994 9052 .leaf .leaf)) (.node 126475221947194 11051 (.node 126359488779199 6055 .leaf .leaf) .leaf)) (.node 127033993679807 19018 (.node 127033985687042 5014 (.node 127033798644671 15109 .leaf .leaf) .leaf) (.node 127034104372738 28006 (.node 127034072847162 17022 .leaf .leaf) .leaf))) (.node 127111377540031 19022 (.node 127042830619450 22030 (.node 127034762747394 3031 (.node 127034213815231 8150 .leaf .leaf) .leaf) (.node 127111284282303 3034 (.node 127111052022719 19024 .leaf .leaf) .leaf)) (.node 127407626801978 12030 (.node 127407460799290 15014 (.node 127197601878842 20018 .leaf .leaf) .leaf) (.node 127463389156287 26044 (.node 127407746407938 4007 .leaf .leaf) .leaf)))) (.node 128262159291327 30028 (.node 127803174638527 26054 (.node 127570600809407 24097 (.node 127566770492218 2036 (.node 127484933004802 13043 .leaf .leaf) .leaf) (.node 127802883399170 7009 (.node 127802597790522 7005 .leaf .leaf) .leaf)) (.node 127948787834370 15034 (.node 127948611476994 29031 (.node 127948388392450 28033 .leaf .leaf) .leaf) (.node 128051991499578 2039 (.node 127949522165250 15032 .leaf .leaf) .leaf))) (.node 128747514516282 3016 (.node 128571682542394 29030 (.node 128567086764991 6071 (.node 128489816478655 3057 .leaf .leaf) .leaf) (.node 128747472442303 24114 (.node 128747337896895 10095 .leaf .leaf) .leaf)) (.node 128747770172351 24101 (.node 128747764798399 22099 (.node 128747545514943 19023 .leaf .leaf) .leaf) (.node 128850329359295 5077 (.node 128748292101055 3078 .leaf .leaf) .leaf))))) (.node 130491247317951 27043 (.node 130280716131842 13008 (.node 129100169237306 4102 (.node 128872481641407 4087 (.node 128863553082303 26028 (.node 128851538826175 5076 .leaf .leaf) .leaf) (.node 129079172092863 22040 (.node 129026578273215 22043 .leaf .leaf) .leaf)) (.node 130272196648450 9077 (.node 129259561833407 27051 (.node 129258430288831 27050 .leaf .leaf) .leaf) (.node 130280561136442 4101 (.node 130280552354618 14038 .leaf .leaf) .leaf))) (.node 130281181369279 24116 (.node 130280972571583 26018 (.node 130280793923074 13004 (.node 130280724910906 16076 .leaf .leaf) .leaf) (.node 130281066681279 22064 (.node 130281058358207 22087 .leaf .leaf) .leaf)) (.node 130285726490114 5010 (.node 130281742163458 3011 (.node 130281742160698 3022 .leaf .leaf) .leaf) (.node 130340738847679 3069 (.node 130323699553082 16040 .leaf .leaf) .leaf)))) (.node 130638157796154 14029 (.node 130637543527359 18026 (.node 130637045257151 24151 (.node 130612475420162 12009 (.node 130603183723455 28104 .leaf .leaf) .leaf) (.node 130637276206015 8135 (.node 130637198417410 14008 .leaf .leaf) .leaf)) (.node 130637580227519 24081 (.node 130637576426298 21032 (.node 130637556437951 28117 .leaf .leaf) .leaf) (.node 130638136562623 24082 (.node 130637691376442 4030 .leaf .leaf) .leaf))) (.node 130779457344447 14094 (.node 130671635944383 16098 (.node 130663069933058 16067 (.node 130641398682559 11091 .leaf .leaf) .leaf) (.node 130672762639162 28023 (.node 130672587333122 16010 .leaf .leaf) .leaf)) (.node 130882089344514 24014 (.node 130809074897722 2020 (.node 130808997106490 14059 .leaf .leaf) .leaf) (.node 131265310446394 9082 (.node 131264325702591 14114 .leaf .leaf) .leaf)))))

/-- part of the search tree -/
def idx20 : Idx :=
  .node 133867737535290 7004 (.node 133308903543743 9102 (.node 131888229602106 12029 (.node 131887385891775 22053 (.node 131887218578234 17027 (.node 131887109460927 28052 (.node 131887033897919 15054 .leaf .leaf) (.node 131887120012090 12024 .leaf .leaf)) (.node 131887330513855 21061 (.node 131887318782911 24100 .leaf .leaf) .leaf)) (.node 131888075789247 12094 (.node 131887488982530 1032 (.node 131887408370623 24119 .leaf .leaf) .leaf) (.node 131888137526786 11057 (.node 131888079524799 6089 .leaf .leaf) .leaf))) (.node 132544417911743 3035 (.node 132054615413695 28138 (.node 131942946263999 2090 (.node 131888238383930 9035 .leaf .leaf) .leaf) (.node 132415392666559 9107 (.node 132329349796666 11031 .leaf .leaf) .leaf)) (.node 132836760968706 13029 (.node 132836284257215 29067 (.node 132565903561530 22021 .leaf .leaf) .leaf) (.node 133300430132159 22079 (.node 132990774760383 17053 .leaf .leaf) .leaf)))) (.node 133656912420354 6025 (.node 133446452138943 21107 (.node 133322594866111 2118 (.node 133322493547455 19031 (.node 133321390314431 12126 .leaf .leaf) .leaf) (.node 133446364582847 22111 (.node 133322599781311 12128 .leaf .leaf) .leaf)) (.node 133656623013378 1041 (.node 133609154433983 28072 (.node 133476016804799 28083 .leaf .leaf) .leaf) (.node 133656662138370 1001 (.node 133656638214970 20027 .leaf .leaf) .leaf))) (.node 133836803035962 2026 (.node 133657053385530 4028 (.node 133656933129730 1044 (.node 133656923820991 27106 .leaf .leaf) .leaf) (.node 133657755803138 1042 (.node 133657455055807 28107 .leaf .leaf) .leaf)) (.node 133846078280506 21021 (.node 133837050764802 9065 (.node 133836949052930 20068 .leaf .leaf) .leaf) (.node 133867372696378 29048 (.node 133867092529978 1018 .leaf .leaf) .leaf))))) (.node 136835527496639 22116 (.node 135073807291194 16025 (.node 134073194009535 19019 (.node 134030593774394 14040 (.node 134030324290362 3033 (.node 134030285165503 3081 .leaf .leaf) .leaf) (.node 134060413440959 11083 (.node 134031181959994 22026 .leaf .leaf) .leaf)) (.node 134442826948098 10087 (.node 134395294798783 24096 (.node 134378192720831 21049 .leaf .leaf) .leaf) (.node 135013847880506 16022 (.node 134696294503359 17107 .leaf .leaf) .leaf))) (.node 135610686919615 27079 (.node 135168490623802 4022 (.node 135104859034426 15030 (.node 135103801482754 20069 .leaf .leaf) .leaf) (.node 135211722101695 11103 (.node 135211416376255 11102 .leaf .leaf) .leaf)) (.node 136835075625919 24088 (.node 135792205979138 24069 (.node 135654660789183 24189 .leaf .leaf) .leaf) (.node 136835188219394 27019 (.node 136835101053887 26067 .leaf .leaf) .leaf)))) (.node 139235958412090 9053 (.node 138819350057919 2111 (.node 137626157011903 22058 (.node 137626083480511 4106 (.node 137157309322175 27071 .leaf .leaf) .leaf) (.node 138819195720639 21100 (.node 138153736229823 30023 .leaf .leaf) .leaf)) (.node 139235785528255 11106 (.node 139235657274170 3020 (.node 139235652752319 24124 .leaf .leaf) .leaf) (.node 139235803222842 10024 (.node 139235800732474 17020 .leaf .leaf) .leaf))) (.node 139390692315962 16046 (.node 139236073493439 28053 (.node 139236001272634 25006 (.node 139235963130682 10049 .leaf .leaf) .leaf) (.node 139309794284479 6035 (.node 139309120901946 24029 .leaf .leaf) .leaf)) (.node 139420299976194 29039 (.node 139420299973567 29041 (.node 139395610006463 6040 .leaf .leaf) .leaf) (.node 139523406585346 10012 (.node 139523324203967 16091 .leaf .leaf) .leaf)))))

/-- part of the search tree -/
def idx21 : Idx :=
  .node 142844390104578 24017 (.node 140468760368063 4110 (.node 140013175725570 4056 (.node 139588088386362 14034 (.node 139523873330111 10127 (.node 139523773256639 10132 (.node 139523618460607 22115 .leaf .leaf) (.node 139523830797247 28037 .leaf .leaf)) (.node 139541049136063 2121 (.node 139524532556735 6085 .leaf .leaf) .leaf)) (.node 139635140154170 13018 (.node 139593252036098 24012 (.node 139592795250178 24070 .leaf .leaf) .leaf) (.node 139746669056959 29099 (.node 139635395482559 28049 .leaf .leaf) .leaf))) (.node 140013493834687 1082 (.node 140013224612666 20063 (.node 140013223498687 28126 (.node 140013189813183 9109 .leaf .leaf) .leaf) (.node 140013490033466 4029 (.node 140013457068991 24156 .leaf .leaf) .leaf)) (.node 140249228399418 7006 (.node 140013605508031 6052 (.node 140013604983743 11109 .leaf .leaf) .leaf) (.node 140249718739770 10043 (.node 140249368974271 24198 .leaf .leaf) .leaf)))) (.node 141301703922490 3015 (.node 140743256462138 9042 (.node 140601608000314 10045 (.node 140601598104378 24032 (.node 140550045520698 1024 .leaf .leaf) .leaf) (.node 140739063206714 22031 (.node 140721781625791 21084 .leaf .leaf) .leaf)) (.node 141023160521663 26041 (.node 140817317715458 12063 (.node 140744194609978 16023 .leaf .leaf) .leaf) (.node 141301664273343 8113 (.node 141056789077506 20003 .leaf .leaf) .leaf))) (.node 141447472960447 8077 (.node 141318894804482 4009 (.node 141318883791807 10109 (.node 141318619422210 10082 .leaf .leaf) .leaf) (.node 141447468438463 2079 (.node 141319163892671 10110 .leaf .leaf) .leaf)) (.node 141795448544770 20077 (.node 141448464782271 2078 (.node 141447631101442 20067 .leaf .leaf) .leaf) (.node 142379536503743 28100 (.node 141795625164290 20079 .leaf .leaf) .leaf))))) (.node 143699153343290 4095 (.node 143586524812090 1030 (.node 143071382754239 3089 (.node 143067854298626 9064 (.node 143015294161855 2076 (.node 143015187340802 13036 .leaf .leaf) .leaf) (.node 143071206530562 29077 (.node 143067880575935 9134 .leaf .leaf) .leaf)) (.node 143414838842170 5017 (.node 143183541785402 13023 (.node 143182875677498 24049 .leaf .leaf) .leaf) (.node 143565165908927 26075 (.node 143428549497791 24122 .leaf .leaf) .leaf))) (.node 143651319468858 12022 (.node 143608377662978 2014 (.node 143608377660351 2113 (.node 143595869393722 12017 .leaf .leaf) .leaf) (.node 143651027112895 24105 (.node 143612957971258 20029 .leaf .leaf) .leaf)) (.node 143698191143871 12090 (.node 143685309060031 21046 (.node 143651332838335 15065 .leaf .leaf) .leaf) (.node 143698930324415 31022 (.node 143698271753018 2053 .leaf .leaf) .leaf)))) (.node 144046023335426 4003 (.node 143827144695298 14006 (.node 143818735702975 5101 (.node 143818530837439 20129 (.node 143818378138559 29035 .leaf .leaf) .leaf) (.node 143826892706618 12032 (.node 143818836562879 24133 .leaf .leaf) .leaf)) (.node 143973149660095 11105 (.node 143922199024575 27084 (.node 143861675938751 31013 .leaf .leaf) .leaf) (.node 144046011405114 4045 (.node 143973204581890 4064 .leaf .leaf) .leaf))) (.node 144338245803522 11003 (.node 144089147462591 20110 (.node 144059573031738 11037 (.node 144046461768506 4044 .leaf .leaf) .leaf) (.node 144338245800762 11044 (.node 144270475744191 12121 .leaf .leaf) .leaf)) (.node 144398627263423 6057 (.node 144398273631034 1017 (.node 144339185982978 11006 .leaf .leaf) .leaf) (.node 144398654264122 4099 (.node 144398635914175 5096 .leaf .leaf) .leaf)))))

/-- part of the search tree -/
def idx22 : Idx :=
  .node 147937327865346 2010 (.node 145308777337791 26014 (.node 144798752398850 20096 (.node 144664486695871 20132 (.node 144548606530362 12023 (.node 144471942452159 24104 (.node 144462937084863 30022 .leaf .leaf) (.node 144472334884354 9069 .leaf .leaf)) (.node 144648314442687 27044 (.node 144613514960386 1009 .leaf .leaf) .leaf)) (.node 144797807304194 20081 (.node 144797783380794 20028 (.node 144797705589562 20046 .leaf .leaf) .leaf) (.node 144798539275778 20095 (.node 144798423735810 20004 .leaf .leaf) .leaf))) (.node 145192684445186 15004 (.node 144802959938362 29094 (.node 144802720076735 15063 (.node 144802378568506 22019 .leaf .leaf) .leaf) (.node 144926910012930 20002 (.node 144823445705663 9141 .leaf .leaf) .leaf)) (.node 145295856066050 16009 (.node 145261642339130 4103 (.node 145261482955711 10128 .leaf .leaf) .leaf) (.node 145304589521722 29008 (.node 145295999587263 24145 .leaf .leaf) .leaf)))) (.node 146151003804607 24152 (.node 145901512184767 22088 (.node 145794215793599 5098 (.node 145794138002367 2094 (.node 145309747794879 26023 .leaf .leaf) .leaf) (.node 145795184874431 20131 (.node 145794844480447 28140 .leaf .leaf) .leaf)) (.node 146086273569727 12136 (.node 145927660131130 12027 (.node 145901857231807 24171 .leaf .leaf) .leaf) (.node 146150682874815 24147 (.node 146086688740287 22072 .leaf .leaf) .leaf))) (.node 146902239564602 20058 (.node 146550052246330 1014 (.node 146378747040570 11028 (.node 146151356587522 20088 .leaf .leaf) .leaf) (.node 146726386488255 11114 (.node 146550133969855 4126 .leaf .leaf) .leaf)) (.node 147671303544322 10094 (.node 147670875788090 14091 (.node 147065448324610 8045 .leaf .leaf) .leaf) (.node 147855656571706 23014 (.node 147739758187455 9157 .leaf .leaf) .leaf))))) (.node 151179865641919 16109 (.node 149956063026690 29070 (.node 149951503684543 12123 (.node 148435620680506 2040 (.node 148294159523330 13035 (.node 147937404474170 2028 .leaf .leaf) .leaf) (.node 149861426025407 8091 (.node 149041195865023 5065 .leaf .leaf) .leaf)) (.node 149952008576514 8005 (.node 149951744136127 12122 (.node 149951591437247 12129 .leaf .leaf) .leaf) (.node 149952713154050 12013 (.node 149952713151423 12127 .leaf .leaf) .leaf))) (.node 150926621103039 21076 (.node 150449807053626 8022 (.node 150089207010106 15026 (.node 149956306359098 29072 .leaf .leaf) .leaf) (.node 150450222486463 27113 (.node 150449945137978 2042 .leaf .leaf) .leaf)) (.node 150926929845762 11008 (.node 150926623921087 9137 (.node 150926623920954 11040 .leaf .leaf) .leaf) (.node 150927670727482 11039 (.node 150926970999743 21054 .leaf .leaf) .leaf)))) (.node 151180104782650 28021 (.node 151180013097786 3019 (.node 151179951494079 9126 (.node 151179917349823 24139 (.node 151179868853183 22055 .leaf .leaf) .leaf) (.node 151179972334527 3076 (.node 151179963749311 18017 .leaf .leaf) .leaf)) (.node 151180089056770 19001 (.node 151180048028474 18008 (.node 151180026991418 10 .leaf .leaf) .leaf) (.node 151180089581058 22001 (.node 151180089578298 10075 .leaf .leaf) .leaf))) (.node 151180138468287 9133 (.node 151180113105722 3025 (.node 151180112122815 9091 (.node 151180107273018 16034 .leaf .leaf) .leaf) (.node 151180131062586 16024 (.node 151180129162042 9043 .leaf .leaf) .leaf)) (.node 151180291822527 5081 (.node 151180291822394 10042 (.node 151180265938434 24064 .leaf .leaf) .leaf) (.node 151180596499258 6013 (.node 151180524409791 28137 .leaf .leaf) .leaf)))))

/-- part of the search tree -/
def idx23 : Idx :=
  .node 156059034932026 8017 (.node 155281613935551 18025 (.node 154349814567871 5059 (.node 153722710217663 1052 (.node 153619918970370 10078 (.node 151197215904570 5022 (.node 151181092606778 25003 .leaf .leaf) (.node 151609749164858 9047 .leaf .leaf)) (.node 153624102329858 9008 (.node 153624102327231 9136 .leaf .leaf) .leaf)) (.node 154134964491066 2025 (.node 153898990460418 29045 (.node 153898741292546 20074 .leaf .leaf) .leaf) (.node 154349790647231 29026 (.node 154169324229567 11099 .leaf .leaf) .leaf))) (.node 155260309623743 6074 (.node 155174317216703 26060 (.node 155174191846202 24025 (.node 155161300325311 6047 .leaf .leaf) .leaf) (.node 155260171015103 19043 (.node 155175185109951 26073 .leaf .leaf) .leaf)) (.node 155260621381122 5005 (.node 155260591035194 2048 (.node 155260378633151 19041 .leaf .leaf) .leaf) (.node 155261292731906 6001 (.node 155260629442050 15038 .leaf .leaf) .leaf)))) (.node 155458111689663 14110 (.node 155325053948863 15094 (.node 155324508885951 24182 (.node 155299246396218 14017 (.node 155281822473730 5013 .leaf .leaf) .leaf) (.node 155325052244927 5086 (.node 155324563873282 12064 .leaf .leaf) .leaf)) (.node 155424117838650 17024 (.node 155325717241346 24019 (.node 155325717238586 12044 .leaf .leaf) .leaf) (.node 155457916132866 15002 (.node 155436855022527 8095 .leaf .leaf) .leaf))) (.node 155492251947834 12045 (.node 155462125313538 11059 (.node 155462109385663 8164 (.node 155462100996922 4049 .leaf .leaf) .leaf) (.node 155462451617282 6018 (.node 155462195502594 17008 .leaf .leaf) .leaf)) (.node 155625887650618 4100 (.node 155625318142778 29040 (.node 155492762538943 6033 .leaf .leaf) .leaf) (.node 156059030737722 8016 (.node 155626151826367 24092 .leaf .leaf) .leaf))))) (.node 158184963658554 14014 (.node 158047739335615 26048 (.node 157987933672383 12084 (.node 157819971523519 13052 (.node 157704017433535 27072 (.node 156059388171066 29085 .leaf .leaf) .leaf) (.node 157898412285442 8049 (.node 157819978341890 9070 .leaf .leaf) .leaf)) (.node 158043766545922 13005 (.node 158043223184319 16102 (.node 158026197455807 26035 .leaf .leaf) .leaf) (.node 158044431539714 16007 (.node 158044431537087 16095 .leaf .leaf) .leaf))) (.node 158116744221498 2046 (.node 158048083530554 4082 (.node 158047916086207 19021 (.node 158047781412354 24008 .leaf .leaf) .leaf) (.node 158061398283199 8149 (.node 158060627189250 8060 .leaf .leaf) .leaf)) (.node 158125339661114 8071 (.node 158124989111810 21002 (.node 158116754576186 21026 .leaf .leaf) .leaf) (.node 158176591303615 11096 (.node 158173128577983 15082 .leaf .leaf) .leaf)))) (.node 158442918335290 24052 (.node 158250501166015 3036 (.node 158185220365826 4067 (.node 158185196442426 16055 (.node 158185118651327 1068 .leaf .leaf) .leaf) (.node 158185463698367 1089 (.node 158185230128063 4112 .leaf .leaf) .leaf)) (.node 158442737524226 13003 (.node 158442737521599 13051 (.node 158373987963839 10134 .leaf .leaf) .leaf) (.node 158442894480319 11112 (.node 158442816689087 11089 .leaf .leaf) .leaf))) (.node 158443180086207 28065 (.node 158443113960383 13066 (.node 158442918403586 14076 (.node 158442918400826 7 .leaf .leaf) .leaf) (.node 158443167241151 10115 (.node 158443161736127 24135 .leaf .leaf) .leaf)) (.node 158443755101698 17012 (.node 158443687662527 9151 (.node 158443192013759 3080 .leaf .leaf) .leaf) (.node 158614717027263 15061 (.node 158614677446146 24011 .leaf .leaf) .leaf)))))

/-- part of the search tree -/
def idx24 : Idx :=
  .node 160311240187394 30001 (.node 159125716491778 20072 (.node 159026867360703 8086 (.node 158833499004418 6008 (.node 158687689331647 24111 (.node 158614998897599 4086 (.node 158614854325183 29100 .leaf .leaf) (.node 158687651320634 10032 .leaf .leaf)) (.node 158833499001791 6080 (.node 158688602772282 10031 .leaf .leaf) .leaf)) (.node 158971159728954 5016 (.node 158962609446402 9062 (.node 158833579548162 8061 .leaf .leaf) .leaf) (.node 158996954832386 24073 (.node 158980032647994 14032 .leaf .leaf) .leaf))) (.node 159083725872642 8002 (.node 159031481226175 26042 (.node 159031220065215 5079 (.node 159026867363330 8003 .leaf .leaf) .leaf) (.node 159083725870015 8080 (.node 159082844607290 8067 .leaf .leaf) .leaf)) (.node 159108865351170 1040 (.node 159108373959615 12125 (.node 159100048399874 14087 .leaf .leaf) .leaf) (.node 159109583429122 12003 (.node 159109583426495 12073 .leaf .leaf) .leaf)))) (.node 159417693658626 6026 (.node 159237385638847 20102 (.node 159160001319871 4123 (.node 159134648652735 24142 (.node 159125827965887 20145 .leaf .leaf) .leaf) (.node 159228897418754 9001 (.node 159216294319039 2104 .leaf .leaf) .leaf)) (.node 159379221274114 12014 (.node 159357644723135 20128 (.node 159324118668223 11104 .leaf .leaf) .leaf) (.node 159417667441599 19029 (.node 159396299428799 9123 .leaf .leaf) .leaf))) (.node 159559609897786 29021 (.node 159439249101626 11016 (.node 159422069232442 9022 (.node 159418013209535 15079 .leaf .leaf) .leaf) (.node 159447839036351 20104 (.node 159439350816258 11011 .leaf .leaf) .leaf)) (.node 159642159371199 15102 (.node 159632484225983 27091 (.node 159577739187135 9128 .leaf .leaf) .leaf) (.node 160204804414978 12061 (.node 159783198481922 3006 .leaf .leaf) .leaf))))) (.node 160329349223359 1056 (.node 160328408978234 3017 (.node 160328299798018 14067 (.node 160328208110394 18010 (.node 160328149193663 20125 (.node 160328144671546 29062 .leaf .leaf) .leaf) (.node 160328242451258 22012 (.node 160328231837186 29060 .leaf .leaf) .leaf)) (.node 160328369918778 2043 (.node 160328316113855 3049 (.node 160328310739903 24155 .leaf .leaf) .leaf) (.node 160328385123130 23002 (.node 160328376144831 2080 .leaf .leaf) .leaf))) (.node 160328649560890 9029 (.node 160328418808634 4080 (.node 160328409043770 16032 (.node 160328408978367 24110 .leaf .leaf) .leaf) (.node 160328546407226 9085 (.node 160328546278914 3008 .leaf .leaf) .leaf)) (.node 160328687964986 4035 (.node 160328685343679 14096 (.node 160328656180159 6039 .leaf .leaf) .leaf) (.node 160328752780090 24044 (.node 160328690848703 15093 .leaf .leaf) .leaf)))) (.node 163558200529722 11018 (.node 163412657397250 11068 (.node 163412171641658 6021 (.node 160329354138559 24200 (.node 160329351451450 14058 .leaf .leaf) .leaf) (.node 163412390466362 14049 (.node 163412171641791 5094 .leaf .leaf) .leaf)) (.node 163442260336130 5004 (.node 163442079519546 5025 (.node 163424978752314 20045 .leaf .leaf) .leaf) (.node 163558035512834 10091 (.node 163557960078138 13012 .leaf .leaf) .leaf))) (.node 163673935011330 6028 (.node 163558956421946 13013 (.node 163558204464642 16012 (.node 163558204462015 16105 .leaf .leaf) .leaf) (.node 163575380399039 15096 (.node 163559150146362 10020 .leaf .leaf) .leaf)) (.node 163674367022015 30029 (.node 163674188504578 22008 (.node 163674164646847 14115 .leaf .leaf) .leaf) (.node 163675137990146 2015 (.node 163675137987519 2110 .leaf .leaf) .leaf)))))

/-- part of the search tree -/
def idx25 : Idx :=
  .node 164953825566210 24068 (.node 164374225376191 21081 (.node 164133764289471 28039 (.node 163992259482426 24043 (.node 163970517390138 14051 (.node 163785857717050 16028 (.node 163785857654274 18001 .leaf .leaf) (.node 163937033343935 26055 .leaf .leaf)) (.node 163992016150018 16003 (.node 163991989998527 6064 .leaf .leaf) .leaf)) (.node 164133710943167 22074 (.node 164133641802687 22063 (.node 164133578167231 3066 .leaf .leaf) .leaf) (.node 164133759833023 9095 (.node 164133751509951 22054 .leaf .leaf) .leaf))) (.node 164224220681018 2056 (.node 164134545609663 13063 (.node 164134011753274 29020 (.node 164133993405954 14003 .leaf .leaf) .leaf) (.node 164134704665535 28119 (.node 164134588797887 6067 .leaf .leaf) .leaf)) (.node 164374007275010 1043 (.node 164374005175231 2098 (.node 164336702350807 17076 .leaf .leaf) .leaf) (.node 164374163706815 9158 (.node 164374059963327 29058 .leaf .leaf) .leaf)))) (.node 164374517601215 21078 (.node 164374248248255 13065 (.node 164374229111610 8023 (.node 164374228587455 24192 (.node 164374228587322 23007 .leaf .leaf) .leaf) (.node 164374247068607 20156 (.node 164374236844858 30015 .leaf .leaf) .leaf)) (.node 164374509540287 1071 (.node 164374495253439 22105 (.node 164374407110146 13001 .leaf .leaf) .leaf) (.node 164374515375618 12001 (.node 164374515372991 12104 .leaf .leaf) .leaf))) (.node 164375251538879 6053 (.node 164374529921983 16092 (.node 164374521074623 1057 (.node 164374517603842 21005 .leaf .leaf) .leaf) (.node 164374913965570 9068 (.node 164374539227962 20039 .leaf .leaf) .leaf)) (.node 164906705638335 21051 (.node 164893778465594 23008 (.node 164881786229562 23005 .leaf .leaf) .leaf) (.node 164915705107391 1091 (.node 164915196154815 1090 .leaf .leaf) .leaf))))) (.node 165148385366975 21124 (.node 165147190449087 8174 (.node 165048592326146 27032 (.node 165048476390335 8115 (.node 165048401482687 2083 (.node 164989062042426 22017 .leaf .leaf) .leaf) (.node 165048587867071 8088 (.node 165048538452927 14104 .leaf .leaf) .leaf)) (.node 165142965670714 5026 (.node 165049523199490 2005 (.node 165048709307906 16013 .leaf .leaf) .leaf) (.node 165147127665599 20150 (.node 165147097977791 4090 .leaf .leaf) .leaf))) (.node 165147514655679 21113 (.node 165147493553087 11111 (.node 165147338429375 4116 (.node 165147260638143 21080 .leaf .leaf) .leaf) (.node 165147501223426 4058 (.node 165147499713338 10076 .leaf .leaf) .leaf)) (.node 165147612634626 21006 (.node 165147605687810 4004 (.node 165147516883903 5090 .leaf .leaf) .leaf) (.node 165148139934655 20112 (.node 165148094321599 4088 .leaf .leaf) .leaf)))) (.node 165430830126015 21086 (.node 165229215568831 4131 (.node 165199531435479 17104 (.node 165198800245562 10035 (.node 165198792840127 24121 .leaf .leaf) .leaf) (.node 165228966663103 5103 (.node 165228703669762 4069 .leaf .leaf) .leaf)) (.node 165233261630399 28103 (.node 165233085079042 3014 (.node 165229580211135 28128 .leaf .leaf) .leaf) (.node 165237304283962 22011 (.node 165233993667519 3082 .leaf .leaf) .leaf))) (.node 165503875634111 18018 (.node 165503801775039 26065 (.node 165503727195071 12072 (.node 165503663756223 8155 .leaf .leaf) .leaf) (.node 165503815865279 8085 (.node 165503805510591 5050 .leaf .leaf) .leaf)) (.node 165542499343874 11005 (.node 165504789730106 28019 (.node 165503981867967 24186 .leaf .leaf) .leaf) (.node 165757232108346 12028 (.node 165757154775866 22022 .leaf .leaf) .leaf)))))

/-- part of the search tree -/
def idx26 : Idx :=
  .node 167651066860346 16 (.node 166379996798466 20010 (.node 165989175942658 4051 (.node 165924649718586 24038 (.node 165778683420162 13027 (.node 165774670910399 24098 (.node 165774388452866 24015 .leaf .leaf) (.node 165778682893114 17021 .leaf .leaf)) (.node 165779515659199 10124 (.node 165779287724858 1025 .leaf .leaf) .leaf)) (.node 165925369238330 12016 (.node 165925027730234 12020 (.node 165924727509818 2052 .leaf .leaf) .leaf) (.node 165989152019391 6059 (.node 165985830392634 12033 .leaf .leaf) .leaf))) (.node 166156655743802 4048 (.node 166083641299903 2075 (.node 166083563508671 27063 (.node 165989427860415 24199 .leaf .leaf) .leaf) (.node 166084517909439 2081 (.node 166083665223170 21036 .leaf .leaf) .leaf)) (.node 166379811001279 10106 (.node 166268348816898 8059 (.node 166156940235711 1083 .leaf .leaf) .leaf) (.node 166379994043194 11036 (.node 166379846062906 15028 .leaf .leaf) .leaf)))) (.node 166397929804735 5035 (.node 166380479337407 24169 (.node 166380266804159 27108 (.node 166380017966594 20084 (.node 166380017898431 24079 .leaf .leaf) .leaf) (.node 166380409213887 29095 (.node 166380278534970 23016 .leaf .leaf) .leaf)) (.node 166397158577087 13053 (.node 166380963058623 2116 (.node 166380582884154 24045 .leaf .leaf) .leaf) (.node 166397441170946 14070 (.node 166397158708159 15073 .leaf .leaf) .leaf))) (.node 166410344420287 25018 (.node 166409821770687 21119 (.node 166398036562879 3068 (.node 166398034269119 22113 .leaf .leaf) .leaf) (.node 166410043609914 23011 (.node 166410043085759 3072 .leaf .leaf) .leaf)) (.node 167084184264194 4015 (.node 167028456316418 22037 (.node 166478637257663 26012 .leaf .leaf) .leaf) (.node 167646931607042 9063 (.node 167084368682498 12055 .leaf .leaf) .leaf))))) (.node 170253911872447 3051 (.node 168733908882367 10138 (.node 167732667110335 2082 (.node 167651339293498 24055 (.node 167651338048447 8106 (.node 167651226571578 16087 .leaf .leaf) .leaf) (.node 167651465515967 1077 (.node 167651359281978 4038 .leaf .leaf) .leaf)) (.node 167733182944058 2024 (.node 167732932662074 2023 (.node 167732668289850 2022 .leaf .leaf) .leaf) (.node 168733669807039 1051 (.node 167801776985023 27107 .leaf .leaf) .leaf))) (.node 169790013658047 28142 (.node 168883873534778 10029 (.node 168803329004479 8129 (.node 168734605136831 8112 .leaf .leaf) .leaf) (.node 168884241060666 4036 (.node 168884232737727 8064 .leaf .leaf) .leaf)) (.node 169790380528442 9045 (.node 169790198076351 5056 (.node 169790194733882 1049 .leaf .leaf) .leaf) (.node 169871724663610 9023 (.node 169791324771263 28124 .leaf .leaf) .leaf)))) (.node 170255023559615 8108 (.node 170254088232450 21040 (.node 170254039342594 15036 (.node 170253970199354 24054 (.node 170253930746815 20109 .leaf .leaf) .leaf) (.node 170254078467586 4054 (.node 170254043340290 20076 .leaf .leaf) .leaf)) (.node 170254810570242 4062 (.node 170254348276671 14098 (.node 170254215828282 4040 .leaf .leaf) .leaf) (.node 170254930959874 14085 (.node 170254929056703 8097 .leaf .leaf) .leaf))) (.node 172057798136767 20126 (.node 170255033064962 31004 (.node 170255033062335 31019 (.node 170255027884991 22071 .leaf .leaf) .leaf) (.node 170766037242682 9019 (.node 170255042368447 20144 .leaf .leaf) .leaf)) (.node 172229661709114 1022 (.node 172079831339967 28114 (.node 172079415645119 9099 .leaf .leaf) .leaf) (.node 173865881588671 10118 (.node 173862094328634 2057 .leaf .leaf) .leaf)))))

/-- part of the search tree -/
def idx27 : Idx :=
  .node 175480797224450 13040 (.node 174566201712130 2017 (.node 174270123171330 8046 (.node 174153887342082 10009 (.node 174153822985730 9015 (.node 173866877935106 10006 (.node 173866399650751 8078 .leaf .leaf) (.node 174153807057722 12039 .leaf .leaf)) (.node 174153884851714 4061 (.node 174153884848954 9050 .leaf .leaf) .leaf)) (.node 174205742964226 15009 (.node 174153919779775 28087 (.node 174153893172159 11085 .leaf .leaf) .leaf) (.node 174269839987647 5061 (.node 174269771174714 29028 .leaf .leaf) .leaf))) (.node 174527547003706 10071 (.node 174407586173887 22104 (.node 174352563655482 28027 (.node 174270723478463 9120 .leaf .leaf) .leaf) (.node 174527469215234 11073 (.node 174437847487290 3027 .leaf .leaf) .leaf)) (.node 174566018670082 11012 (.node 174528057594682 4046 (.node 174527814259647 6073 .leaf .leaf) .leaf) (.node 174566201709370 2060 (.node 174566124311354 4096 .leaf .leaf) .leaf)))) (.node 174609073591231 21089 (.node 174566486201146 23009 (.node 174566225630010 11021 (.node 174566205379386 29084 (.node 174566204461882 20019 .leaf .leaf) .leaf) (.node 174566404346815 11115 (.node 174566235395007 6069 .leaf .leaf) .leaf)) (.node 174567175050175 22082 (.node 174567171707706 11024 (.node 174566663216642 11010 .leaf .leaf) .leaf) (.node 174567328404415 22091 (.node 174567243210242 8057 .leaf .leaf) .leaf))) (.node 174635188441914 30021 (.node 174622036284351 16099 (.node 174609185067967 6062 (.node 174609175237567 15108 .leaf .leaf) .leaf) (.node 174622309047810 10013 (.node 174622300722111 24126 .leaf .leaf) .leaf)) (.node 174884329509690 4023 (.node 174883951498042 12043 (.node 174635677078463 6038 .leaf .leaf) .leaf) (.node 175167769891775 20116 (.node 174905722950458 1047 .leaf .leaf) .leaf))))) (.node 175481924899775 6075 (.node 175481053598655 4129 (.node 175480951952186 16049 (.node 175480876454714 7003 (.node 175480852730682 10025 (.node 175480798794554 9088 .leaf .leaf) .leaf) (.node 175480886222338 20089 (.node 175480877044671 15046 .leaf .leaf) .leaf)) (.node 175481029743551 12091 (.node 175481029743418 13046 (.node 175481014539066 9058 .leaf .leaf) .leaf) (.node 175481033416194 1006 (.node 175481032233786 4031 .leaf .leaf) .leaf))) (.node 175481315352066 1033 (.node 175481296999359 10096 (.node 175481182180154 1029 (.node 175481053664191 5037 .leaf .leaf) .leaf) (.node 175481303948802 29097 (.node 175481300800314 10018 .leaf .leaf) .leaf)) (.node 175481329963834 4081 (.node 175481327997887 29075 (.node 175481327407930 16056 .leaf .leaf) .leaf) (.node 175481348248378 13020 (.node 175481332585274 29029 .leaf .leaf) .leaf)))) (.node 5641971339111519034 10052 (.node 5623190434971999746 9017 (.node 5621429051969461762 10007 (.node 175482003084223 28102 (.node 175481993843647 4109 .leaf .leaf) .leaf) (.node 5622576800289215290 21025 (.node 5622564302116967226 6091 .leaf .leaf) .leaf)) (.node 5628485837619221306 20038 (.node 5623732257881412410 8032 (.node 5623435832220013370 10047 .leaf .leaf) .leaf) (.node 5636655565315988994 11070 (.node 5628524814711280442 11029 .leaf .leaf) .leaf))) (.node 5662251470601346562 27031 (.node 5646770561605391295 24131 (.node 5642054223659225914 10044 (.node 5641985676200006458 27041 .leaf .leaf) .leaf) (.node 5660057519672742714 13048 (.node 5646844988737278778 30008 .leaf .leaf) .leaf)) (.node 5662521752596602370 15033 (.node 5662309074606576442 24034 (.node 5662259514778410498 7008 .leaf .leaf) .leaf) (.node 5696309942489142074 11050 (.node 5662597348778267450 8020 .leaf .leaf) .leaf)))))

/-- part of the search tree -/
def idx28 : Idx :=
  .node 6850983832408904506 16017 (.node 6199588523510816258 3005 (.node 6038293492186239802 16015 (.node 5869481718048641850 16016 (.node 5867150431421816322 13032 (.node 5866872465429451578 2033 (.node 5855624671930700602 17018 .leaf .leaf) (.node 5866941627555074874 13025 .leaf .leaf)) (.node 5867476561434009090 6003 (.node 5867459815461704506 6034 .leaf .leaf) .leaf)) (.node 5892511770913039831 17058 (.node 5888294010265097018 12034 (.node 5888294010222501378 12053 .leaf .leaf) .leaf) (.node 6005382051356169151 26020 (.node 5987362206913876794 8041 .leaf .leaf) .leaf))) (.node 6092373246407103290 27007 (.node 6055484596785730495 27102 (.node 6048423632169095994 20057 (.node 6038375118058642946 10010 .leaf .leaf) .leaf) (.node 6087836446708814783 27099 (.node 6057513578647936514 27033 .leaf .leaf) .leaf)) (.node 6109236198905172927 27104 (.node 6109234137357901314 10001 (.node 6109233801952514874 27008 .leaf .leaf) .leaf) (.node 6161018330372203991 17084 (.node 6161010878246310714 27003 .leaf .leaf) .leaf)))) (.node 6646278213352510399 27070 (.node 6424224482887684922 30007 (.node 6327094927481328442 10067 (.node 6258707953813050170 10064 (.node 6258696508255462871 17073 .leaf .leaf) .leaf) (.node 6424221480705545018 18007 (.node 6364808717119017786 27013 .leaf .leaf) .leaf)) (.node 6425048219376636730 16074 (.node 6425034432251061719 17088 (.node 6424235280779533826 16068 .leaf .leaf) .leaf) (.node 6635635451999441722 21024 (.node 6427864201799357242 27017 .leaf .leaf) .leaf))) (.node 6696954833775055674 8019 (.node 6679795296804164543 27049 (.node 6661225683092722490 8039 (.node 6661196958447719226 26006 .leaf .leaf) .leaf) (.node 6694731728175586818 24077 (.node 6679847819877831482 12046 .leaf .leaf) .leaf)) (.node 6774359507295622079 27103 (.node 6770150039657801175 17092 (.node 6770150039490880983 17094 .leaf .leaf) .leaf) (.node 6814891903500312066 27034 (.node 6805951096011447810 9007 .leaf .leaf) .leaf))))) (.node 7510979521246944770 19011 (.node 7327453137538667322 16043 (.node 7083688806929358338 17045 (.node 6854579472068009474 12006 (.node 6854579471948668418 14071 (.node 6854579471507480066 8010 .leaf .leaf) .leaf) (.node 7069059894844871482 14046 (.node 6897068096923131394 19012 .leaf .leaf) .leaf)) (.node 7086503397881828287 17068 (.node 7083771343685641687 17108 (.node 7083754610493056471 17103 .leaf .leaf) .leaf) (.node 7277930924030909954 24002 (.node 7086503398648468415 27088 .leaf .leaf) .leaf))) (.node 7380926382371986946 16060 (.node 7350549702454694714 10016 (.node 7342368777119030786 26009 (.node 7333435219403559738 16027 .leaf .leaf) .leaf) (.node 7353411709353087802 26007 (.node 7351722859352380218 17031 .leaf .leaf) .leaf)) (.node 7444312407342404410 21027 (.node 7418166064438137791 19017 (.node 7381223556371668482 15010 .leaf .leaf) .leaf) (.node 7464578519674147642 26004 (.node 7452776950219564503 17052 .leaf .leaf) .leaf)))) (.node 7883074081630737210 23012 (.node 7770260228417803066 6004 (.node 7738192920779253207 17089 (.node 7531545469309378050 13031 (.node 7530400452946842426 11015 .leaf .leaf) .leaf) (.node 7739038440793068346 12041 (.node 7738971103991782914 1039 .leaf .leaf) .leaf)) (.node 7825381903152993082 18012 (.node 7810479780007203642 10051 (.node 7796989794535297850 27015 .leaf .leaf) .leaf) (.node 7825405344995300154 16039 (.node 7825381941776831290 30006 .leaf .leaf) .leaf))) (.node 7927862237625602874 16047 (.node 7887864271688586042 17036 (.node 7887859155991548730 19006 (.node 7884205775274398655 26061 .leaf .leaf) .leaf) (.node 7927861691473417151 17082 (.node 7887881889335497530 17013 .leaf .leaf) .leaf)) (.node 8239706377827868162 17044 (.node 7991757898343535418 25002 (.node 7989787277893852674 17041 .leaf .leaf) .leaf) (.node 8248713576776160191 27067 (.node 8241954801603010050 10005 .leaf .leaf) .leaf)))))

/-- part of the search tree -/
def idx29 : Idx :=
  .node 10826461414310695871 27053 (.node 9522962654503523130 10026 (.node 8783838446979079682 8011 (.node 8643346892743335426 18005 (.node 8437580305267708730 16038 (.node 8330391244722099135 27098 (.node 8281657165487362874 2050 .leaf .leaf) (.node 8423528177352531458 16061 .leaf .leaf)) (.node 8538113172029657914 27042 (.node 8444350140150797114 2031 .leaf .leaf) .leaf)) (.node 8643371627441053186 27036 (.node 8643364738332447546 13 (.node 8643352948682022402 8001 .leaf .leaf) .leaf) (.node 8777898391511323450 17017 (.node 8771168791526658874 9084 .leaf .leaf) .leaf))) (.node 9242058002476323775 26016 (.node 9143858295515340290 10088 (.node 9124999493280289594 6019 (.node 8969849173835797439 26076 .leaf .leaf) .leaf) (.node 9223773029293841922 11071 (.node 9205764850410153431 17085 .leaf .leaf) .leaf)) (.node 9432046237560230847 24120 (.node 9425853383902712634 16042 (.node 9361414902701708090 24026 .leaf .leaf) .leaf) (.node 9440771119854605114 10036 (.node 9435415093771326399 27054 .leaf .leaf) .leaf)))) (.node 10447625867326676482 24072 (.node 10097734154289828666 2032 (.node 9907734867539481402 11019 (.node 9907723885239358266 5020 (.node 9541863886544395778 16002 .leaf .leaf) .leaf) (.node 10088997154744000002 16072 (.node 10063716548573352762 10027 .leaf .leaf) .leaf)) (.node 10357824810347226583 17065 (.node 10357812135451317050 27110 (.node 10097791758376653759 26021 .leaf .leaf) .leaf) (.node 10422287153696363322 26005 (.node 10366809778779282946 14011 .leaf .leaf) .leaf))) (.node 10718950230368146234 5024 (.node 10507275949725143866 5015 (.node 10507271641878451002 24036 (.node 10449022216913511895 17056 .leaf .leaf) .leaf) (.node 10507281047583937338 10041 (.node 10507280244459983674 2054 .leaf .leaf) .leaf)) (.node 10801981787943686970 14 (.node 10726549122433766202 2051 (.node 10726535004788118330 6009 .leaf .leaf) .leaf) (.node 10826461413980986882 27024 (.node 10822809398648200706 5002 .leaf .leaf) .leaf))))) (.node 11500323524473934650 2027 (.node 10903879290069603130 15019 (.node 10826480646084654815 17003 (.node 10826467679464873474 27022 (.node 10826464424056279999 27057 (.node 10826463092946263554 27040 .leaf .leaf) .leaf) (.node 10826475333219149271 17090 (.node 10826473271741996546 17046 .leaf .leaf) .leaf)) (.node 10826532336044102458 26002 (.node 10826500562087859135 27061 (.node 10826480646194748930 27025 .leaf .leaf) .leaf) (.node 10903864034846659386 15018 (.node 10874084998415143738 14088 .leaf .leaf) .leaf))) (.node 11131660694210436610 9006 (.node 10997066049009182167 17049 (.node 10903941321989381634 18014 (.node 10903907928878568250 24039 .leaf .leaf) .leaf) (.node 11127435412722769410 2012 (.node 11127370021883827135 24125 .leaf .leaf) .leaf)) (.node 11431955367296259007 27047 (.node 11278592899669316410 16026 (.node 11157800642562973186 8063 .leaf .leaf) .leaf) (.node 11440400840837255994 11020 (.node 11437850128097039295 28136 .leaf .leaf) .leaf)))) (.node 373261926932928620357079 17059 (.node 369753656559985685784023 17061 (.node 369752406504763629460994 17007 (.node 11500392913983853370 24030 (.node 11500342736603534138 24041 .leaf .leaf) .leaf) (.node 369753656559985616578007 17062 (.node 369752406524048375897602 17047 .leaf .leaf) .leaf)) (.node 369757815621800334220802 27001 (.node 369757815621800334218175 27097 (.node 369753656559985715209687 17050 .leaf .leaf) .leaf) (.node 371081128048320271375874 10079 (.node 370937496677843576905218 17040 .leaf .leaf) .leaf))) (.node 396852238594207437312959 27089 (.node 383902309265766407298562 27012 (.node 383902309265766407295802 27020 (.node 383900865542884702447063 17091 .leaf .leaf) .leaf) (.node 395727504537274865636154 26008 (.node 390193041683430687331130 17015 .leaf .leaf) .leaf)) (.node 398972273190885767339522 17001 (.node 398971884227325532069378 17010 (.node 396985209890271052976954 27009 .leaf .leaf) .leaf) (.node 410816423855711874407938 27028 (.node 399268793280885377225663 17069 .leaf .leaf) .leaf)))))

/-- part of the search tree -/
def idx30 : Idx :=
  .node 1690366783448859744110456497460159 28059 (.node 720702479236150339001858 17043 (.node 617732765109327438964183 17099 (.node 481189480177272687186746 26003 (.node 433505604054102943879994 10017 (.node 415690431285335672902591 26045 (.node 411429179100262683796951 17067 .leaf .leaf) (.node 418676164713893339419583 26050 .leaf .leaf)) (.node 443687962763510798376450 17002 (.node 443411161677178676859839 26036 .leaf .leaf) .leaf)) (.node 573146219059402327413562 11081 (.node 529152686454048606343994 9041 (.node 512843668838003501650746 27111 .leaf .leaf) .leaf) (.node 617732765109327272043991 17075 (.node 583827330278873292034874 9028 .leaf .leaf) .leaf))) (.node 709523085259326213870394 27014 (.node 704248813057216601480706 17038 (.node 684787120007643587765719 17055 (.node 684786668530366908685826 17005 .leaf .leaf) .leaf) (.node 709522975226657841894202 27004 (.node 704248813096265913104095 17009 .leaf .leaf) .leaf)) (.node 709689908141136936854999 17100 (.node 709524235621803519010263 17054 (.node 709524235621803352090071 17048 .leaf .leaf) .leaf) (.node 720058040872868756017978 9086 (.node 713324611180531012492802 17039 .leaf .leaf) .leaf)))) (.node 49034495428512603467843326778 8038 (.node 31471200623931563360084256215 17098 (.node 24174050443902146563708904919 17096 (.node 752343490070840035532290 10003 (.node 725351934760918842954687 28110 .leaf .leaf) .leaf) (.node 27591698639168011674712036154 10002 (.node 24174050830270189121434244031 3044 .leaf .leaf) .leaf)) (.node 42553349679503353906766898647 17095 (.node 36670717916183107010052444986 17026 (.node 31471200623931563360251176407 17097 .leaf .leaf) .leaf) (.node 46499652877416693511420470743 17109 (.node 44878118051023117736231003607 17102 .leaf .leaf) .leaf))) (.node 1591173405760347628394042466456511 4115 (.node 1585859220496457620718200681092031 8158 (.node 1582785874758087455364221501133759 6058 (.node 1582774542152331987490415339852735 5068 .leaf .leaf) .leaf) (.node 1588390376516601723998096508801983 7013 (.node 1586175376245559463489618877046238 3003 .leaf .leaf) .leaf)) (.node 1658828648241021315692082249817566 24003 (.node 1603147238110728357295430680925119 13055 (.node 1593620843302606820825614960513983 19039 .leaf .leaf) .leaf) (.node 1685291294721766668596638518039487 24128 (.node 1685229601836161521671612816643007 19036 .leaf .leaf) .leaf))))) (.node 2077624279742590438137113574331327 28058 (.node 1863393393133804572399095719486935 17080 (.node 1853257924660386138913943211168703 8134 (.node 1808250197889452729376265312359359 8065 (.node 1808250067465216744098738007135167 5055 (.node 1780923874611073474401644400300991 12069 .leaf .leaf) .leaf) (.node 1808420370136273666956552159581119 3048 (.node 1808260261137301594826194386902494 28007 .leaf .leaf) .leaf)) (.node 1860709674617111130934061735564223 16113 (.node 1860700571405689432776376198058943 8152 (.node 1855960741916084986783477228327871 28112 .leaf .leaf) .leaf) (.node 1863393393133804572399095650280919 17072 (.node 1861890868913710017411460275852223 5093 .leaf .leaf) .leaf))) (.node 1905643556598565417359192006284223 5052 (.node 1879558376778878126107703818015679 16093 (.node 1872285189000142671698325342475199 28143 (.node 1863393393133804572399095748912599 17079 .leaf .leaf) .leaf) (.node 1884407097697291785672707419100095 24176 (.node 1884391226919131884820901876421567 28064 .leaf .leaf) .leaf)) (.node 2062499175416220674339294718677951 12082 (.node 2062495919926746872173340743390143 16111 (.node 1955774366449167035169959887721407 5092 .leaf .leaf) .leaf) (.node 2069790057501596393748685999788991 7014 (.node 2069782525554024955747492477754846 27011 .leaf .leaf) .leaf)))) (.node 2220236591201491564967407023513054 19004 (.node 2115970909945525081406977011831743 16112 (.node 2092608477718837533722609721234367 16094 (.node 2092302438255884478059707920765887 24095 (.node 2077628425253505340949233737094079 29102 .leaf .leaf) .leaf) (.node 2101481549667315501008721003896286 19003 (.node 2099103205709851723244718790497215 6093 .leaf .leaf) .leaf)) (.node 2203765558145579885407820645618623 28040 (.node 2198052694735243183478208026334143 12065 (.node 2136830203160990730422140440108510 28005 .leaf .leaf) .leaf) (.node 2220236513830239109631139842317790 19008 (.node 2204708040516388510415812749382591 28141 .leaf .leaf) .leaf))) (.node 2374969192591849816287598358519262 3002 (.node 2292664960420305217737267976295359 27094 (.node 2256294233749189629035882993111999 28093 (.node 2231487077212893725446315775316927 16110 .leaf .leaf) .leaf) (.node 2343363570309057220810175313305054 19002 (.node 2343359931186299373033270871282623 6011 .leaf .leaf) .leaf)) (.node 2432891246279673074132671256023999 28130 (.node 2403261463641832528328404619711423 7015 (.node 2374971674516557485121294030298590 24004 .leaf .leaf) .leaf) (.node 2470758745319154583348450658444759 17105 (.node 2470758745319154583348450589238743 17106 .leaf .leaf) .leaf)))))

/-- part of the search tree -/
def idx31 : Idx :=
  .node 8858356122165841234550973383424651250324415 28063 (.node 127701546990641780907985744121290251742 28010 (.node 3053010074225232252943213507859391 5082 (.node 2922771581709328462256948167529407 12081 (.node 2788788881536126074514803774935999 28043 (.node 2651245541819700844276949054084031 12077 (.node 2470758745319155300265216369911255 17111 .leaf .leaf) (.node 2749329955270571133035771269436351 5064 .leaf .leaf)) (.node 2918953217569410314888198305308126 28012 (.node 2917999018382695595722404475392959 4117 .leaf .leaf) .leaf)) (.node 2957545758844897770830257792439231 5097 (.node 2941141942155462219448025748301271 17101 (.node 2940740037350659012103760122696639 5054 .leaf .leaf) .leaf) (.node 3051664623557064086116421663937471 7018 (.node 3040494182494032622890318386910143 19033 .leaf .leaf) .leaf))) (.node 104450128629692237607498151954438902719 11084 (.node 3219482868791702389194118336828351 12086 (.node 3132092200971926574095837548991423 24201 (.node 3069189953083402071360303997342655 8153 .leaf .leaf) .leaf) (.node 3237064916286995396209147278742463 5087 (.node 3220175230294021769735525220703710 19007 .leaf .leaf) .leaf)) (.node 126227651704677801411916439675823939038 13009 (.node 117846567554458042653419207577405445055 28055 (.node 105063257076960632951233274212800749022 27005 .leaf .leaf) .leaf) (.node 127161035279660077684017817717116195775 19048 (.node 126444673246889321053643528587913679807 3074 .leaf .leaf) .leaf)))) (.node 198716796332752687786209844634146526143 13069 (.node 153772069525801597828449070377619641279 5070 (.node 144550556953792456439241365054845309887 6092 (.node 144487735056333273365191219096976053183 19047 (.node 137119951603374122877172851063868052415 27087 .leaf .leaf) .leaf) (.node 153575801249132600340568922300480181183 28109 (.node 148356509603970527427938969912805643199 28044 .leaf .leaf) .leaf)) (.node 169265466206438144896457162558210266047 5063 (.node 168752436679397834494048945563798033343 28108 (.node 159441967844168399703903639590517035967 30038 .leaf .leaf) .leaf) (.node 170823064724132409258487972734707651519 3052 (.node 170823059652219518184180290491967558591 3059 .leaf .leaf) .leaf))) (.node 8003225952729306015787198833081412826649535 27065 (.node 6957177572970587863178380107251247316947903 7017 (.node 199531646188340310554836687558973019071 16100 (.node 198717439502026329804394096572197721023 11086 .leaf .leaf) .leaf) (.node 7766456005829597288053087180211347540104127 19051 (.node 7261067539972072100262125302942471835835870 27006 .leaf .leaf) .leaf)) (.node 8184665288242878568046700110168579634844607 27086 (.node 8171323354511881189946441543142364747092927 28094 (.node 8012784706093376298955753479111737186407359 28122 .leaf .leaf) .leaf) (.node 8844401876151008687223658150663583805693406 28015 (.node 8184673467277388737113968512472546394463710 27010 .leaf .leaf) .leaf))))) (.node 629963428082931949601287039103456641729326439902 12005 (.node 465000911458681845664253681540505307880261112767 6045 (.node 11977710420720260598976690178470815240773086 28003 (.node 10125546026757448004027924625144910993642431 7016 (.node 9414024064702876106160722453448933930390463 19034 (.node 8923410886899044902503741469169336438182847 28057 .leaf .leaf) .leaf) (.node 11172015651896280760162377103976211796415423 28041 (.node 10585613683997043514800425998179744312153023 28076 .leaf .leaf) .leaf)) (.node 13088396807313289467373781534265458246245854 24005 (.node 12532722451207060692635273055681194590163903 4118 (.node 12521832933360883920395677604717657147860439 17063 .leaf .leaf) .leaf) (.node 464933550895273393580909614216874870169533109183 28090 (.node 13183344232798287355430752979451284161254335 12080 .leaf .leaf) .leaf))) (.node 544794330450386350947200763503071020490438693823 30039 (.node 482685518760781250482381886391539573903903642559 27101 (.node 476353358010125254885205428720381716412348715967 6088 (.node 471735839934362675906146475892846087449551262655 6095 .leaf .leaf) .leaf) (.node 522404468301277869867865261890669936397061411775 28056 (.node 496422186771930426980622300527835856831763927999 8182 .leaf .leaf) .leaf)) (.node 590085739194328720128195218651307436467195433919 10098 (.node 550413555014986422584734588293763505831286627806 11002 (.node 546443135585180767719731260944418623603252878814 28009 .leaf .leaf) .leaf) (.node 624945760473711120806722626205784432399531859422 19005 (.node 618697223022574208454929031415989872448927126463 28048 .leaf .leaf) .leaf)))) (.node 30793205384893709487090692030579460582459578812945343 13062 (.node 829444700482045600494207221946519603510544913343 30040 (.node 722955026996085531741449579931396115017548651998 28016 (.node 714589622669680686388863913824102869757253604287 6044 (.node 695077679245821303070333749896867739312238318527 30041 .leaf .leaf) .leaf) (.node 823956009865739848591666364471265962888261227455 6083 (.node 805711676212686678123920987685181841230060540863 28106 .leaf .leaf) .leaf)) (.node 906755104169244395276010290839581226583184858590 6006 (.node 857760644304883208685966310647358486740282856383 3058 (.node 852230949001257509612340854614389227539641619391 6042 .leaf .leaf) .leaf) (.node 30415832151536964484961610566361144610025338929110494 27002 (.node 906755559821518018432007047338084939026201796062 6007 .leaf .leaf) .leaf))) (.node 59425441545064804996447281378733918731447059240148446 6002 (.node 33674981629005058470413994793403988509777679145980863 6032 (.node 33047924614588277944044251169226957516325821613822911 27055 (.node 31989836122167073022626603256854746644261569920979903 16088 .leaf .leaf) .leaf) (.node 54556933841041323514774288085331175122954911536075711 28144 (.node 49263307295893323916527130181236715642455752101815767 17016 .leaf .leaf) .leaf)) (.node 239882103744646025797500124475271472987160334503214704999748543 28062 (.node 2240466527340291442064640569394388008682834911483943146431 28046 (.node 1992572092963515749937938199306830483764648619942860247999 28054 .leaf .leaf) .leaf) (.node 841567367490767207603147051169472294123943036880952342419697448620086207 3043 (.node 578356188870693566977505500573556677386154823115783703595104630526923711 28042 .leaf .leaf) .leaf)))))

/-- name (as a number) ↦ 1000·row + place -/
def idx : Idx :=
  .node 119149207704511 9098 (.node 98962178006530 20017 (.node 89560243917626 18009 (.node 85987065748994 20008 (.node 85801925038906 1011 idx0 idx1) (.node 86506787459898 14028 idx2 idx3)) (.node 92395171894207 5039 (.node 91634704470842 8030 idx4 idx5) (.node 96543641391930 3018 idx6 idx7))) (.node 105554850960319 8162 (.node 102285959582655 15041 (.node 100728092971967 9172 idx8 idx9) (.node 103922852388354 16062 idx10 idx11)) (.node 113376771658687 16050 (.node 111808409132546 14092 idx12 idx13) (.node 116026766480186 22034 idx14 idx15)))) (.node 158614726857663 9131 (.node 131886969017279 2069 (.node 121072144700218 30011 (.node 119964306330559 22084 idx16 idx17) (.node 125753884300223 28080 idx18 idx19)) (.node 144462870240770 20091 (.node 139523547812799 12079 idx20 idx21) (.node 151181078123322 11048 idx22 idx23))) (.node 5725032974520376834 10008 (.node 165757491041082 24022 (.node 163675282559935 15071 idx24 idx25) (.node 173865940570938 10068 idx26 idx27)) (.node 411429179100262516876759 17066 (.node 8281095456760550202 27021 idx28 idx29) (.node 2470758745319155300265216271279575 17113 idx30 idx31))))

end Verif.City
