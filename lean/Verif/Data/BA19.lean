import Mathlib.Data.Rat.Defs
import Mathlib.Algebra.Order.Ring.Rat
import Mathlib.Tactic.NormNum

/-! Generated by tools/gen_data.py from src/pygmm/data/bayless_abrahamson_2019.csv
(loaded in src/pygmm/bayless_abrahamson_2019.py line 32).  Do not edit. -/

namespace BA19

/-- one row of bayless_abrahamson_2019.csv: the columns of the file, in order -/
structure Row where
  freq_hz : ℚ
  c1 : Option ℚ
  c2 : Option ℚ
  c3 : Option ℚ
  cn : Option ℚ
  cM : Option ℚ
  c4 : Option ℚ
  c5 : Option ℚ
  c6 : Option ℚ
  chm : Option ℚ
  c7 : Option ℚ
  c8 : Option ℚ
  c9 : Option ℚ
  c10 : Option ℚ
  c11a : Option ℚ
  c11b : Option ℚ
  c11c : Option ℚ
  c11d : Option ℚ
  c1a : Option ℚ
  s1 : ℚ
  s2 : ℚ
  s3 : ℚ
  s4 : ℚ
  s5 : ℚ
  s6 : ℚ
  f3 : ℚ
  f4 : ℚ
  f5 : ℚ

/-- src/pygmm/data/bayless_abrahamson_2019.csv, part 1 of 8 -/
def table0 : List Row := [
  ⟨0.1, some (-3.64999998939925), some (1.27), some (3.48570650852503), some (1.55229046897076), some (6.79837319084988), some (-1.86), some (7.5818), some (0.45), some (3.838), some (-9.93e-11), some (-0.743231724355658), some (-0.0312053545141881), some (-0.2), some (0.435485417713765), some (0.264594095765709), some (0.2068246443273), some (0.0769258704714028), some (0.162699640269275), 0.55708674413389, 0.428744430241036, 0.350000003358367, 0.350000003545105, 0.403571174846991, 0.403571174846991, 1, -0.0001, -0.02⟩,
  ⟨0.1023293, some (-3.64774628782626), some (1.27), some (3.48135744195672), some (1.56280494361916), some (6.78618509124285), some (-1.86), some (7.5818), some (0.45), some (3.838), some (-0.0000263), some (-0.749511189046711), some (-0.0312173946790171), some (-0.2), some (0.436075163336449), some (0.265781870523385), some (0.207919363466881), some (0.0791014808016777), some (0.171104360965465), 0.55708674413389, 0.428744430241036, 0.350890995762301, 0.350890995925777, 0.403859133904691, 0.403859133904691, 1, -0.0001, -0.02⟩,
  ⟨0.1047129, some (-3.64549258622243), some (1.27), some (3.47697320858558), some (1.57347044572188), some (6.77400787990784), some (-1.86), some (7.5818), some (0.45), some (3.838), some (-0.0000526), some (-0.755784379700912), some (-0.0312294342751785), some (-0.2), some (0.43664767705143), some (0.266947550633775), some (0.209011420626527), some (0.0812769713754682), some (0.178404273571635), 0.55708674413389, 0.428744430241036, 0.351781988166507, 0.35178198830745, 0.40414709296248, 0.40414709296248, 1, -0.0001, -0.02⟩,
  ⟨0.10715192, some (-3.64323888458386), some (1.27), some (3.47255445475557), some (1.58429090489399), some (6.76184117393401), some (-1.86), some (7.5818), some (0.45), some (3.838), some (-0.0000789), some (-0.76205215862103), some (-0.0312414732520305), some (-0.2), some (0.437202834322046), some (0.268090625398295), some (0.210100672345619), some (0.0834520622120971), some (0.184615660295721), 0.55708674413389, 0.428744430241037, 0.352672980571043, 0.352672980690142, 0.404435052020375, 0.404435052020375, 1, -0.0001, -0.02⟩,
  ⟨0.10964782, some (-3.64098518290892), some (1.27), some (3.46810036544953), some (1.5952695444501), some (6.74968441331695), some (-1.86), some (7.5818), some (0.45), some (3.838), some (-0.000105206597971244), some (-0.768315652111989), some (-0.0312535115573727), some (-0.2), some (0.437740687186193), some (0.269210781463981), some (0.211186991417373), some (0.0856264065991884), some (0.189759046227722), 0.55708674413389, 0.428744430241036, 0.353563972975853, 0.353563973073811, 0.404723011078358, 0.404723011078358, 1, -0.0001, -0.02⟩,
  ⟨0.11220184, some (-3.63873148119559), some (1.27), some (3.46361151744205), some (1.60641087409163), some (6.73753680335119), some (-1.86), some (7.5818), some (0.45), some (3.838), some (-0.000131508222650384), some (-0.774576201133875), some (-0.0312655491371224), some (-0.2), some (0.438261359733098), some (0.270307894853377), some (0.212270271085316), some (0.0877996128509847), some (0.193857985713307), 0.55708674413389, 0.428744430241036, 0.354454965380918, 0.354454965458435, 0.405010970136424, 0.405010970136424, 1, -0.0001, -0.02⟩,
  ⟨0.1148154, some (-3.63647777944142), some (1.27), some (3.45908793856567), some (1.61771925811093), some (6.72539724347051), some (-1.86), some (7.5818), some (0.45), some (3.838), some (-0.00015780984733524), some (-0.780835276547817), some (-0.0312775859349666), some (-0.2), some (0.438764985682493), some (0.271382000220181), some (0.213350410942191), some (0.0899712341643538), some (0.196938217882452), 0.55708674413389, 0.428744430241036, 0.355345957786271, 0.355345957844019, 0.405298929194584, 0.405298929194584, 1, -0.0001, -0.02⟩,
  ⟨0.1174898, some (-3.63422407764408), some (1.27), some (3.45453057844187), some (1.62919995853677), some (6.71326428536981), some (-1.86), some (7.5818), some (0.45), some (3.838), some (-0.000184111472024055), some (-0.78709440860628), some (-0.031289621891988), some (-0.2), some (0.439251716755258), some (0.272433282951635), some (0.214427309723969), some (0.0921407580583394), some (0.199026826061934), 0.55708674413389, 0.428744430241037, 0.356236950191981, 0.356236950230574, 0.405586888252858, 0.405586888252858, 1, -0.0001, -0.02⟩,
  ⟨0.12022643, some (-3.63197037580333), some (1.27), some (3.44994029201235), some (1.6408583791335), some (6.70113614967967), some (-1.86), some (7.5818), some (0.45), some (3.838), some (-0.000210413096716024), some (-0.79335512316493), some (-0.0313016569462566), some (-0.2), some (0.439721764291835), some (0.273462104447736), some (0.215500875781777), some (0.0943076262144679), some (0.200151100482247), 0.55708674413389, 0.428744430241036, 0.357127942598002, 0.357127942618067, 0.405874847311233, 0.405874847311233, 1, -0.0001, -0.02⟩,
  ⟨0.1230269, some (-3.62971667392158), some (1.27), some (3.44531730151983), some (1.65269965836114), some (6.68901072208393), some (-1.86), some (7.5818), some (0.45), some (3.838), some (-0.000236714721421757), some (-0.799618843880856), some (-0.0313136910323856), some (-0.2), some (0.440175423849312), some (0.274469003109485), some (0.216571029468707), some (0.0964712544139773), some (0.200337033620685), 0.55708674413389, 0.428744430241036, 0.358018935004169, 0.358018935006419, 0.406162806369655, 0.406162806369655, 1, -0.0001, -0.02⟩,
  ⟨0.12589254, some (-3.6274629720023), some (1.27), some (3.44066340336659), some (1.66473039512596), some (6.67688561041148), some (-1.86), some (7.5818), some (0.45), some (3.838), some (-0.000263016346219226), some (-0.805886814476511), some (-0.0313257240810509), some (-0.2), some (0.440613064411011), some (0.275454661396751), some (0.217637701179715), some (0.0986310536844073), some (0.199606688304578), 0.557086744133891, 0.428744430241037, 0.358909927410326, 0.358909927395561, 0.406450765428074, 0.406450765428074, 1, -0.0001, -0.02⟩,
  ⟨0.12882494, some (-3.62520927005084), some (1.27), some (3.43597949999282), some (1.67695690426537), some (6.66475823834423), some (-1.86), some (7.5818), some (0.45), some (3.838), some (-0.000289317971015528), some (-0.81216009982855), some (-0.0313377560184782), some (-0.2), some (0.44103508335244), some (0.276419830633757), some (0.218700825233558), some (0.100786437846126), some (0.197975809105121), 0.557086744133891, 0.428744430241037, 0.359800919816285, 0.359800919785422, 0.40673872448643, 0.40673872448643, 1, -0.0001, -0.02⟩,
  ⟨0.1318257, some (-3.6229555680736), some (1.27), some (3.43126649981246), some (1.68938575916226), some (6.65262624257254), some (-1.86), some (7.5818), some (0.45), some (3.838), some (-0.0003156195957892), some (-0.818439720097607), some (-0.0313497867659087), some (-0.2), some (0.441441851517007), some (0.277365244014688), some (0.219760313935451), some (0.102936829228645), some (0.195453496577717), 0.55708674413389, 0.428744430241037, 0.360691912221877, 0.360691912175941, 0.407026683544666, 0.407026683544666, 1, -0.0001, -0.02⟩,
  ⟨0.1348963, some (-3.62070186607706), some (1.27), some (3.42652573285781), some (1.70202156045516), some (6.64048763437616), some (-1.86), some (7.5818), some (0.45), some (3.83798850300414), some (-0.000341921220531017), some (-0.824726680272542), some (-0.0313618162390682), some (-0.2), some (0.441833689552203), some (0.278291566270503), some (0.220816053253945), some (0.105081671113362), some (0.192038028309017), 0.557086744133891, 0.428744430241037, 0.361582904626971, 0.361582904567081, 0.407314642602741, 0.407314642602741, 1, -0.0001, -0.02⟩,
  ⟨0.13803841, some (-3.61844816406938), some (1.27), some (3.42175760606277), some (1.71485141164759), some (6.62834081448244), some (-1.86), some (7.5818), some (0.45), some (3.83796578771329), some (-0.000368222845245629), some (-0.831021927783759), some (-0.0313738443476766), some (-0.2), some (0.442210906515428), some (0.279199400857543), some (0.2218678909958), some (0.107220436629918), some (0.187709097161981), 0.55708674413389, 0.428744430241036, 0.362473897031397, 0.362473896958799, 0.4076026016606, 0.4076026016606, 1, -0.0001, -0.02⟩,
  ⟨0.14125373, some (-3.61619446205922), some (1.27), some (3.41696142269158), some (1.72752951329529), some (6.61618456958626), some (-1.86), some (7.5818), some (0.45), some (3.83794307227215), some (-0.000394524469949125), some (-0.83732632099798), some (-0.0313858709950688), some (-0.2), some (0.442573860067249), some (0.280089336388571), some (0.222915629802886), some (0.109352638889226), some (0.18241487173412), 0.55708674413389, 0.428744430241036, 0.36336488943496, 0.36336488935105, 0.407890560718181, 0.407890560718181, 1, -0.0001, -0.02⟩,
  ⟨0.144544, some (-3.61394076005055), some (1.27), some (3.4121379761487), some (1.74029162203962), some (6.60401804707552), some (-1.86), some (7.5818), some (0.45), some (3.83792035645049), some (-0.000420826094665257), some (-0.843640616588611), some (-0.0313978960780293), some (-0.2), some (0.442922975146233), some (0.280961991679834), some (0.223959028411286), some (0.111477846973554), some (0.176049653767829), 0.557086744133891, 0.428744430241037, 0.364255881837525, 0.364255881743821, 0.408178519775439, 0.408178519775439, 1, -0.0001, -0.02⟩,
  ⟨0.14791083, some (-3.61168705803441), some (1.27), some (3.40728778478992), some (1.75313460228807), some (6.59184074040779), some (-1.86), some (7.5818), some (0.45), some (3.83789764117141), some (-0.000447127719421786), some (-0.849965493960482), some (-0.0314099194870103), some (-0.2), some (0.443258703973387), some (0.281818009792993), some (0.224997791395633), some (0.113595697228158), some (0.168417047038386), 0.55708674413389, 0.428744430241037, 0.365146874239037, 0.365146874137136, 0.408466478832357, 0.408466478832357, 1, -0.0001, -0.02⟩,
  ⟨0.15135611, some (-3.60943335597385), some (1.27), some (3.40241023040629), some (1.76605581064231), some (6.57965250691606), some (-1.86), some (7.5818), some (0.45), some (3.83787492571501), some (-0.000473429344247136), some (-0.856301561748173), some (-0.0314219411069792), some (-0.2), some (0.443581473200125), some (0.282658039430522), some (0.226031568444921), some (0.115705906522764), some (0.159203968143947), 0.55708674413389, 0.428744430241036, 0.366037866639439, 0.366037866531024, 0.408754437888916, 0.408754437888916, 1, -0.0001, -0.02⟩,
  ⟨0.1548817, some (-3.60717965376647), some (1.27), some (3.39750478092576), some (1.77905379375951), some (6.56745354210485), some (-1.86), some (7.5818), some (0.45), some (3.83785220988117), some (-0.000499730969166829), some (-0.862649324061279), some (-0.0314339608192584), some (-0.2), some (0.443891662021669), some (0.283482760057418), some (0.227059975297114), some (0.11780827498691), some (0.148232307423411), 0.55708674413389, 0.428744430241036, 0.366928859038725, 0.366928858925546, 0.409042396945114, 0.409042396945114, 1, -0.0001, -0.02⟩,
  ⟨0.15848931, some (-3.60492595148145), some (1.27), some (3.39257143582102), some (1.79212833933921), some (6.55524430170285), some (-1.86), some (7.5818), some (0.45), some (3.83782949468711), some (-0.000526032594200467), some (-0.869009171122743), some (-0.0314459785048496), some (-0.2), some (0.444189605902387), some (0.284292918508399), some (0.228082616507387), some (0.119902687343141), some (0.13721996216475), 0.55708674413389, 0.428744430241036, 0.367819851436963, 0.367819851320792, 0.409330356000974, 0.409330356000974, 1, -0.0001, -0.02⟩,
  ⟨0.162181, some (-3.60267224915766), some (1.27), some (3.38760893272865), some (1.80527879705119), some (6.54302549050872), some (-1.86), some (7.5818), some (0.45), some (3.83780677919443), some (-0.000552334219360204), some (-0.87538128913273), some (-0.0314579940498272), some (-0.2), some (0.444475599184614), some (0.285089344066893), some (0.229099090805064), some (0.121989132169842), some (0.126377006396513), 0.55708674413389, 0.428744430241036, 0.368710843834198, 0.368710843716856, 0.409618315056509, 0.409618315056509, 1, -0.0001, -0.02⟩,
  ⟨0.1659587, some (-3.60041854673624), some (1.27), some (3.38261647249595), some (1.8185060545989), some (6.53079809143154), some (-1.86), some (7.5818), some (0.45), some (3.83778406358584), some (-0.000578635844648761), some (-0.881765527319874), some (-0.0314700073532579), some (-0.2), some (0.444749897376472), some (0.285872960134992), some (0.230108989853143), some (0.12406772340482), some (0.115998203105165), 0.55708674413389, 0.428744430241037, 0.369601836230552, 0.36960183611386, 0.40990627411176, 0.40990627411176, 1, -0.0001, -0.02⟩,
  ⟨0.1698244, some (-3.59816484415423), some (1.27), some (3.37759296978709), some (1.83181273102893), some (6.51856346480311), some (-1.86), some (7.5818), some (0.45), some (3.83776134794462), some (-0.000604937470057662), some (-0.88816131658155), some (-0.0314820183371976), some (-0.2), some (0.445012757172973), some (0.286644770614658), some (0.231111896085046), some (0.12613870036139), some (0.106304705911157), 0.55708674413389, 0.428744430241037, 0.370492828626274, 0.370492828511967, 0.410194233166807, 0.410194233166807, 1, -0.0001, -0.02⟩,
  ⟨0.1737801, some (-3.59591114146801), some (1.27), some (3.37253717455548), some (1.84520414743473), some (6.50632343249038), some (-1.86), some (7.5818), some (0.45), some (3.83773863255495), some (-0.000631239095565892), some (-0.894567810730773), some (-0.0314940269551695), some (-0.2), some (0.44526449463534), some (0.287405783641933), some (0.232107392188687), some (0.128202427526465), some (0.0974321323757166), 0.55708674413389, 0.428744430241036, 0.371383821021714, 0.371383820911366, 0.410482192221762, 0.410482192221762, 1, -0.0001, -0.02⟩,
  ⟨0.177828, some (-3.59365743878618), some (1.27), some (3.36744707076039), some (1.85868861867364), some (6.49408024934174), some (-1.86), some (7.5818), some (0.45), some (3.83771591683053), some (-0.000657540725481443), some (-0.900983898132299), some (-0.0315060331864502), some (-0.2), some (0.445505528785993), some (0.288156953322896), some (0.233095065637695), some (0.13025937799833), some (0.0894077653211345), 0.55708674413389, 0.428744430241036, 0.372274813417292, 0.372274813312235, 0.410770151276762, 0.410770151276762, 1, -0.0001, -0.02⟩,
  ⟨0.1819701, some (-3.59140373623576), some (1.27), some (3.36232120666351), some (1.87227930158154), some (6.48183656765613), some (-1.86), some (7.5818), some (0.45), some (3.83769320158681), some (-0.000683842410608502), some (-0.907408102987497), some (-0.0315180369805518), some (-0.2), some (0.445736361563408), some (0.288899145926174), some (0.234074513991329), some (0.132310129127253), some (0.0821907200909307), 0.55708674413389, 0.428744430241036, 0.373165805813557, 0.373165805714746, 0.411058110331984, 0.411058110331984, 1, -0.0001, -0.02⟩,
  ⟨0.18620871, some (-3.58915003386605), some (1.27), some (3.35715706895596), some (1.88599316788448), some (6.46959539881928), some (-1.86), some (7.5818), some (0.45), some (3.83767048618854), some (-0.000710144418165457), some (-0.913838492714996), some (-0.0315300380684348), some (-0.2), some (0.445957520112354), some (0.289633145824545), some (0.235045369111618), some (0.134355425637656), some (0.0757189860180647), 0.55708674413389, 0.428744430241036, 0.37405679821122, 0.374056798119014, 0.411346069387658, 0.411346069387658, 1, -0.0001, -0.02⟩,
  ⟨0.1905461, some (-3.58689633167458), some (1.27), some (3.35195214950112), some (1.89985191214083), some (6.45736023450816), some (-1.86), some (7.5818), some (0.45), some (3.83764777052875), some (-0.000736447635456782), some (-0.920272603456957), some (-0.0315420355023953), some (-0.2), some (0.446169524079095), some (0.290359632969593), some (0.23600733418458), some (0.136396234426141), some (0.0699598464914972), 0.55708674413389, 0.428744430241036, 0.37494779061157, 0.374947790525133, 0.4116340284442, 0.4116340284442, 1, -0.0001, -0.02⟩,
  ⟨0.19498443, some (-3.5846426296952), some (1.27), some (3.34670401487063), some (1.91388139017569), some (6.44513522941467), some (-1.86), some (7.5818), some (0.45), some (3.83762505533208), some (-0.000762754267311237), some (-0.926707331605421), some (-0.0315540269527028), some (-0.2), some (0.446372810156743), some (0.291079126533498), some (0.236960224172266), some (0.138433799617257), some (0.0648942802053201), 0.55708674413389, 0.428744430241037, 0.375838783017158, 0.375838782933199, 0.411921987502435, 0.411921987502435, 1, -0.0001, -0.02⟩,
  ⟨0.1995262, some (-3.58238892794086), some (1.27), some (3.34140878373009), some (1.92810884475703), some (6.43292547447496), some (-1.86), some (7.5818), some (0.45), some (3.8376023398418), some (-0.000789068807417918), some (-0.933138802323249), some (-0.0315652324054637), some (-0.2), some (0.446567496244007), some (0.291791911622884), some (0.23790400797846), some (0.140469748601914), some (0.0604319743460855), 0.55708674413389, 0.428744430241037, 0.376729775428383, 0.376729775343288, 0.412209946562492, 0.412209946562492, 1, -0.0001, -0.02⟩,
  ⟨0.2041738, some (-3.58013522640421), some (1.27), some (3.3360622882561), some (1.94256180917831), some (6.4207373319785), some (-1.86), some (7.5818), some (0.450009256026108), some (3.83753520781724), some (-0.000815399187418592), some (-0.939562118066873), some (-0.0315755278840258), some (-0.2), some (0.446753211905966), some (0.292497911940944), some (0.238838824288906), some (0.142506177242708), some (0.0563546477368777), 0.55708674413389, 0.428744430241037, 0.377620767843598, 0.377620767755528, 0.412497905623838, 0.412497905623838, 1, -0.0001, -0.02⟩,
  ⟨0.20892961, some (-3.5778815250514), some (1.27), some (3.33065952434985), some (1.95726483135938), some (6.40857879843787), some (-1.86), some (7.5818), some (0.450019574858504), some (3.83746297599047), some (-0.000841757960592446), some (-0.945970972609913), some (-0.0315842986525731), some (-0.2), some (0.446929002550706), some (0.293196447185235), some (0.239764961212431), some (0.144545672434938), some (0.0524246341563841), 0.55708674413389, 0.428744430241037, 0.378511760262151, 0.378511760170119, 0.412785864686263, 0.412785864686263, 1, -0.0001, -0.02⟩,
  ⟨0.2137962, some (-3.57562782376511), some (1.27), some (3.32519370762166), some (1.97223558890232), some (6.39646012276312), some (-1.86), some (7.5818), some (0.45002989369752), some (3.83739074411736), some (-0.000868163368362703), some (-0.952357241520318), some (-0.0315907127076803), some (-0.2), some (0.447093038437435), some (0.293885750563887), some (0.240682790433741), some (0.146591350996761), some (0.0484484273767207), 0.55708674413389, 0.428744430241037, 0.379402752683336, 0.379402752587303, 0.413073823749539, 0.413073823749539, 1, -0.0001, -0.02⟩,
  ⟨0.2187762, some (-3.5733741224206), some (1.27), some (3.31965612649182), some (1.9874823665787), some (6.38439468229998), some (-1.86), some (7.5818), some (0.450040212644469), some (3.83731851148871), some (-0.000894640163811734), some (-0.958710431753566), some (-0.0315937173284591), some (-0.2), some (0.447241878831145), some (0.294562039825745), some (0.241592651345494), some (0.148646964272472), some (0.0443139383609918), 0.55708674413389, 0.428744430241037, 0.380293745107848, 0.380293745007341, 0.413361782813891, 0.413361782813891, 1, -0.0001, -0.02⟩,
  ⟨0.22387212, some (-3.57112042093809), some (1.27), some (3.31403580690059), some (2.00300332954645), some (6.37240032011638), some (-1.86), some (7.5818), some (0.450050531430895), some (3.83724627998374), some (-0.000921220114588205), some (-0.965017013336703), some (-0.0315920523143105), some (-0.2), some (0.44736922684551), some (0.295217910601569), some (0.24249468403047), some (0.150717087603848), some (0.0400015528698252), 0.55708674413389, 0.428744430241037, 0.381184737535909, 0.381184737430488, 0.413649741879389, 0.413649741879389, 1, -0.0001, -0.02⟩,
  ⟨0.2290868, some (-3.56886671927604), some (1.27), some (3.30831728848329), some (2.0187864159798), some (6.36050101868407), some (-1.86), some (7.5818), some (0.450060850337682), some (3.83717404763623), some (-0.000947942156483784), some (-0.97125995130197), some (-0.0315842753062136), some (-0.2), some (0.44746415920765), some (0.295839780568883), some (0.243388473481705), some (0.152807208095491), some (0.0355605821318714), 0.55708674413389, 0.428744430241037, 0.382075729966291, 0.382075729856815, 0.413937700945637, 0.413937700945637, 1, -0.0001, -0.02⟩,
  ⟨0.2344229, some (-3.56661301741738), some (1.27), some (3.30248131459739), some (2.03481084733378), some (6.34872801117526), some (-1.86), some (7.5818), some (0.45007116915622), some (3.83710181590646), some (-0.000974852194245665), some (-0.977419359516619), some (-0.031568794791685), some (-0.2), some (0.44750881990743), some (0.296404315947937), some (0.244272435836625), some (0.154923345935607), some (0.031081121015534), 0.55708674413389, 0.428744430241037, 0.382966722396709, 0.382966722285962, 0.414225660011897, 0.414225660011897, 1, -0.0001, -0.02⟩,
  ⟨0.2398833, some (-3.56435931540362), some (1.27), some (3.29650488146319), some (2.05104748958464), some (6.33711796912763), some (-1.86), some (7.5818), some (0.450081487987202), some (3.83702958408959), some (-0.00100200254976275), some (-0.983476348816169), some (-0.0315439071654951), some (-0.2), some (0.447476866638944), some (0.296875105810436), some (0.245143162003418), some (0.15707075516643), some (0.0266654200981855), 0.55708674413389, 0.428744430241037, 0.38385771482547, 0.383857714716504, 0.414513619077621, 0.414513619077621, 1, -0.0001, -0.02⟩,
  ⟨0.2454709, some (-3.56210561327669), some (1.27), some (3.29036774863468), some (2.06746580896085), some (6.3257031830694), some (-1.86), some (7.5818), some (0.450091806838625), some (3.83695735212963), some (-0.00102945105380002), some (-0.989423697609309), some (-0.0315078349828832), some (-0.2), some (0.447337288269686), some (0.297205054827217), some (0.24599559883944), some (0.159251109266637), some (0.0223977747131756), 0.55708674413389, 0.428744430241037, 0.384748707251951, 0.384748707144803, 0.414801578142608, 0.414801578142608, 1, -0.0001, -0.02⟩
]

/-- src/pygmm/data/bayless_abrahamson_2019.csv, part 2 of 8 -/
def table1 : List Row := [
  ⟨0.2511886, some (-3.55985191105649), some (1.27), some (3.28424486292552), some (2.08423359167001), some (6.31419504316173), some (-1.86), some (7.5818), some (0.4501), some (3.8368868100685), some (-0.00105725978061998), some (-0.995534660535561), some (-0.0314587642497653), some (-0.2), some (0.446390326717556), some (0.296805944720294), some (0.246439836596176), some (0.161108867396512), some (0.0183999372624828), 0.55708674413389, 0.428744430241037, 0.385639699675528, 0.385639724478058, 0.415089537206657, 0.415089537206657, 1, -0.0001, -0.02⟩,
  ⟨0.25703954, some (-3.55759820879849), some (1.27), some (3.27807181331831), some (2.10127407557), some (6.30269841087284), some (-1.86), some (7.5818), some (0.4501), some (3.83682277862266), some (-0.00108549344744359), some (-1.00159256523449), some (-0.0313948792183263), some (-0.2), some (0.445296678710317), some (0.296294780200445), some (0.246824195630819), some (0.162928134860293), some (0.0148275715566366), 0.55708674413389, 0.428744430241037, 0.386530692096169, 0.386530912558262, 0.415377496269757, 0.415377496269757, 1, -0.000100008215699921, -0.02⟩,
  ⟨0.2630268, some (-3.55534450658076), some (1.27), some (3.27185953131764), some (2.11858572691691), some (6.29119462785325), some (-1.86), some (7.5818), some (0.4501), some (3.83675874681774), some (-0.00111421754951691), some (-1.00759719146063), some (-0.0313143936890245), some (-0.2), some (0.444055055767075), some (0.295672221387989), some (0.247147841922689), some (0.164700882580194), some (0.0118021772766372), 0.55708674413389, 0.428744430241037, 0.387421684513884, 0.387422591805952, 0.415665455331912, 0.415665455331912, 1, -0.000100089076496555, -0.02⟩,
  ⟨0.26915344, some (-3.55309080447044), some (1.27), some (3.26562049333971), some (2.13616827614613), some (6.27966285519763), some (-1.86), some (7.5818), some (0.4501), some (3.83669471586141), some (-0.00114349637218352), some (-1.01354781553305), some (-0.0312155782597198), some (-0.2), some (0.442663657800941), some (0.294939026700224), some (0.247409954698262), some (0.166419020014032), some (0.00933240970693472), 0.55708674413389, 0.428744430241037, 0.388312676928253, 0.388315257770769, 0.415953414392985, 0.415953414392985, 1, -0.000100447332472001, -0.02⟩,
  ⟨0.2754229, some (-3.55083710248993), some (1.27), some (3.25936711893236), some (2.15402174457905), some (6.26808122689263), some (-1.86), some (7.5818), some (0.4501), some (3.83663068376231), some (-0.00117339109008025), some (-1.01944360676402), some (-0.0310967833021106), some (-0.2), some (0.441119907391888), some (0.294095618740549), some (0.247609890328057), some (0.168075016884317), some (0.00737448413892938), 0.55708674413389, 0.428744430241037, 0.389203669340339, 0.389209546644656, 0.41624137345332, 0.41624137345332, 1, -0.000101483778718545, -0.02⟩,
  ⟨0.2818383, some (-3.54858340061033), some (1.27), some (3.25311236071294), some (2.1721477397405), some (6.25642849498388), some (-1.86), some (7.5818), some (0.4501), some (3.83656665261178), some (-0.00120395818178382), some (-1.0252828823036), some (-0.0309564576888053), some (-0.2), some (0.439420733753398), some (0.293141986447737), some (0.24774705407926), some (0.169661883863163), some (0.00585150032398696), 0.55708674413389, 0.428744430241037, 0.390094661752488, 0.390106179943701, 0.416529332513675, 0.416529332513675, 1, -0.000103778221234386, -0.02⟩,
  ⟨0.28840312, some (-3.54632969874047), some (1.27), some (3.24686687231386), some (2.19054691625265), some (6.2446861713857), some (-1.86), some (7.5818), some (0.4501), some (3.83650262158965), some (-0.00123524832034466), some (-1.03106274809952), some (-0.0307931634616233), some (-0.2), some (0.437562934297275), some (0.292077972076015), some (0.247820740764376), some (0.171173390447676), some (0.00466986529284741), 0.55708674413389, 0.428744430241037, 0.390985654166904, 0.391005899240901, 0.416817291574764, 0.416817291574764, 1, -0.000108029596553947, -0.02⟩,
  ⟨0.29512092, some (-3.54407599680697), some (1.27), some (3.24063870214403), some (2.20921890937805), some (6.23284009242708), some (-1.86), some (7.5818), some (0.4501), some (3.83643858994025), some (-0.0012673057948813), some (-1.03677878399236), some (-0.0306055867342269), some (-0.2), some (0.435543612703862), some (0.290903665290453), some (0.247830125053504), some (0.172604247459575), some (0.00376997052962613), 0.55708674413389, 0.428744430241037, 0.391876646584853, 0.391909399074707, 0.417105250636993, 0.417105250636993, 1, -0.000114997180451221, -0.02⟩,
  ⟨0.3019952, some (-3.54182229475013), some (1.27), some (3.23443304284544), some (2.22816217576883), some (6.22088129989833), some (-1.86), some (7.5818), some (0.4501), some (3.83637455827543), some (-0.0013001684250361), some (-1.04242559206124), some (-0.0303925451609765), some (-0.2), some (0.433360383662225), some (0.289619001001794), some (0.247773895323982), some (0.173949860664343), some (0.00313195387465193), 0.55708674413389, 0.428744430241037, 0.39276763900777, 0.39281726386763, 0.417393209700829, 0.417393209700829, 1, -0.000125445209947483, -0.02⟩,
  ⟨0.30902954, some (-3.53956859251122), some (1.27), some (3.22825122967382), some (2.24737289401627), some (6.20880717147429), some (-1.86), some (7.5818), some (0.4501), some (3.83631052717991), some (-0.00133386786558007), some (-1.04799876919621), some (-0.0301529922977256), some (-0.2), some (0.431011077688461), some (0.288223119640379), some (0.247650121839434), some (0.175206469857901), some (0.00276910533737862), 0.55708674413389, 0.428744430241037, 0.393658631436301, 0.39372991282178, 0.417681168766479, 0.417681168766479, 1, -0.000140094211231946, -0.02⟩,
  ⟨0.3162278, some (-3.53731489010834), some (1.27), some (3.22209011385084), some (2.26684425983683), some (6.19662179064693), some (-1.86), some (7.5818), some (0.4501), some (3.83624649546957), some (-0.00136843016531825), some (-1.05349580761516), some (-0.0298860191629679), some (-0.2), some (0.428494819117053), some (0.286714651288939), some (0.247456518494682), some (0.176371152271812), some (0.00270903086676277), 0.55708674413389, 0.428744430241037, 0.394549603127511, 0.394647555246916, 0.417969127833731, 0.417969127833731, 1, -0.000159591301257957, -0.02⟩,
  ⟨0.32359364, some (-3.53506118759766), some (1.27), some (3.21594222680128), some (2.28656675286778), some (6.18433724064814), some (-1.86), some (7.5818), some (0.4501), some (3.83618246453167), some (-0.00140387643884722), some (-1.05891563319628), some (-0.0295908532970044), some (-0.2), some (0.425813078175264), some (0.285092874904848), some (0.247190688995329), some (0.177441670102906), some (0.00293929705078089), 0.55708674413389, 0.428744430241037, 0.395440424925717, 0.395570157571222, 0.418257086902402, 0.418257086902402, 1, -0.00018452810297498, -0.02⟩,
  ⟨0.3311311, some (-3.53280748502892), some (1.27), some (3.20979696436138), some (2.3065297062664), some (6.17196975572232), some (-1.86), some (7.5818), some (0.4501), some (3.83611843318435), some (-0.00144022352488059), some (-1.06425592417845), some (-0.0292668556105845), some (-0.2), some (0.422970035480738), some (0.283358635733574), some (0.246850372622934), some (0.17841642808637), some (0.0033877032894698), 0.55708674413389, 0.428744430241037, 0.396330790232916, 0.396497422365038, 0.418545045972218, 0.418545045972218, 1, -0.00021550171461453, -0.02⟩,
  ⟨0.33884412, some (-3.53055378246381), some (1.27), some (3.2036430778627), some (2.32672450838927), some (6.15953718273254), some (-1.86), some (7.5818), some (0.450112132132688), some (3.83597463462889), some (-0.00147748453337365), some (-1.06951222263429), some (-0.0289135153125266), some (-0.2), some (0.419972393266861), some (0.281514557137897), some (0.246433322097215), some (0.179294488657623), some (0.00393118555000083), 0.55708674413389, 0.428744430241037, 0.39722018023288, 0.39742877900258, 0.418833005042838, 0.418833005042838, 1, -0.000253167706701274, -0.02⟩,
  ⟨0.34673681, some (-3.52830007998679), some (1.27), some (3.19746870868156), some (2.34714480458402), some (6.14705805812521), some (-1.86), some (7.5818), some (0.450129168746042), some (3.83579858962423), some (-0.00151566921833592), some (-1.07467838456479), some (-0.0285304432163816), some (-0.2), some (0.416827953140453), some (0.279565068071237), some (0.245937261647854), some (0.180075625736462), some (0.00441249124586474), 0.55708674413389, 0.428744430241037, 0.398107855128011, 0.398363385077515, 0.419120964113782, 0.419120964113782, 1, -0.000298257145149755, -0.02⟩,
  ⟨0.3548134, some (-3.52604637764326), some (1.27), some (3.19126182394537), some (2.36778681958477), some (6.13455106504082), some (-1.86), some (7.5818), some (0.450146205475576), some (3.83562254341905), some (-0.0015547841474256), some (-1.07974814932107), some (-0.0281173638560764), some (-0.2), some (0.413543993350036), some (0.277515616620815), some (0.24536017092668), some (0.180760555165203), some (0.00466571068622157), 0.55708674413389, 0.428744430241037, 0.398992864469523, 0.399300137348049, 0.419408923184718, 0.419408923184718, 1, -0.000351514243769184, -0.02⟩,
  ⟨0.3630781, some (-3.52379267544749), some (1.27), some (3.18501062165), some (2.38864926456559), some (6.12203478403847), some (-1.86), some (7.5818), some (0.450163242166057), some (3.83544649761741), some (-0.00159483267024284), some (-1.08471640107818), some (-0.0276741075356002), some (-0.2), some (0.410127528753449), some (0.275371792520439), some (0.244700474582349), some (0.18135105517534), some (0.00453641537262195), 0.55708674413389, 0.428744430241037, 0.399874070834367, 0.400237690769766, 0.419696882255394, 0.419696882255394, 1, -0.000413627069604762, -0.02⟩,
  ⟨0.37153521, some (-3.52153897335824), some (1.27), some (3.17870377633457), some (2.40973273917374), some (6.10952695842981), some (-1.86), some (7.5818), some (0.450180278656617), some (3.83527045388162), some (-0.00163581471782355), some (-1.08957748729428), some (-0.0272006044848558), some (-0.2), some (0.406585666366705), some (0.273139054302665), some (0.243957162480696), some (0.181849778150551), some (0.00391027609698869), 0.557086685785133, 0.428744367276726, 0.400750182140742, 0.401174484065612, 0.419984841325962, 0.419984841325962, 1, -0.000485175378636189, -0.0199999998401818⟩,
  ⟨0.3801894, some (-3.51928527130939), some (1.27), some (3.17233095159346), some (2.43103929279659), some (6.09704289859592), some (-1.86), some (7.5818), some (0.45019731532257), some (3.83509440833344), some (-0.0016777264971036), some (-1.09432454113952), some (-0.0266968832506265), some (-0.2), some (0.402925446036732), some (0.270823083715849), some (0.243129999874789), some (0.18226002280728), some (0.00275596954366542), 0.557086204142227, 0.428743845676094, 0.401619788799082, 0.402108770262665, 0.420272800396695, 0.420272800396695, 1, -0.000566594770498372, -0.0199999975422665⟩,
  ⟨0.38904511, some (-3.51703156922388), some (1.27), some (3.16588403422677), some (2.45257290721028), some (6.0845951833169), some (-1.86), some (7.5818), some (0.450214351869619), some (3.83491836401394), some (-0.00172056017421242), some (-1.09895047287398), some (-0.0261630745243325), some (-0.2), some (0.399153737671666), some (0.268429747726781), some (0.242219429455199), some (0.182585684991154), some (0.00111352486249761), 0.557084424897646, 0.428741909033716, 0.4024814026916, 0.403038650676487, 0.42056075946795, 0.42056075946795, 1, -0.000658155275021647, -0.0199999844727527⟩,
  ⟨0.39810714, some (-3.51477786703896), some (1.27), some (3.15935557128248), some (2.47433650179643), some (6.07219457209171), some (-1.86), some (7.5818), some (0.450231388500149), some (3.83474231883179), some (-0.00176430366543352), some (-1.10344717793688), some (-0.025599420697145), some (-0.2), some (0.395277068797315), some (0.265964499321694), some (0.24122618740926), some (0.182831185994812), some (-0.000939065738794653), 0.55707985201094, 0.428736906338187, 0.40333349565674, 0.403962110912732, 0.420848718540361, 0.420848718540361, 1, -0.000759950648418984, -0.0199999411811573⟩,
  ⟨0.4073803, some (-3.51252416474731), some (1.27), some (3.15273923998694), some (2.49633165887085), some (6.05985023205519), some (-1.86), some (7.5818), some (0.450248425218008), some (3.83456627274725), some (-0.00180894066769698), some (-1.10780488890817), some (-0.0250062907398721), some (-0.2), some (0.39130116456167), some (0.26343187855298), some (0.240151127575696), some (0.18300116471867), some (-0.00333690388780816), 0.557070324260867, 0.428726434855675, 0.404174535739101, 0.404877057587774, 0.421136677614416, 0.421136677614416, 0.999998882421677, -0.000871896068829159, -0.0199998347222025⟩,
  ⟨0.4168694, some (-3.51027046238994), some (1.27), some (3.14602987823315), some (2.51855806455551), some (6.04756970507854), some (-1.86), some (7.5818), some (0.450265461827795), some (3.83439022777945), some (-0.00185445105126064), some (-1.11201308679346), some (-0.0243841990108072), some (-0.2), some (0.387230227408562), some (0.260834870142243), some (0.23899517572909), some (0.183100002489082), some (-0.0059904930180954), 0.557053022060305, 0.428707344146149, 0.405003019967882, 0.405781354631056, 0.421424636690238, 0.421424636690238, 0.999990072275866, -0.000993742766064878, -0.0199996169958962⟩,
  ⟨0.42657953, some (-3.50801676003246), some (1.27), some (3.13922352934051), some (2.54101329831898), some (6.0353581248311), some (-1.86), some (7.5818), some (0.450282498438642), some (3.8342141828007), some (-0.00190081169367634), some (-1.11606252165081), some (-0.0237338255145337), some (-0.2), some (0.383067303282103), some (0.258174404222277), some (0.237759480883787), some (0.183131564943236), some (-0.00878412037927312), 0.557024508823933, 0.428675787137619, 0.405817502842547, 0.406672858193177, 0.421712595767663, 0.421712595767663, 0.999958924375085, -0.00112513276128081, -0.0199992233852632⟩,
  ⟨0.4365158, some (-3.50576305773224), some (1.27), some (3.13231831320157), some (2.56369409227398), some (6.02321749576647), some (-1.86), some (7.5818), some (0.450299534985334), some (3.83403813848489), some (-0.00194799774849877), some (-1.11994350083504), some (-0.0230560349365029), some (-0.2), some (0.378814802687287), some (0.255449892189199), some (0.236445490191516), some (0.183099392514535), some (-0.0115636866719515), 0.556980794245051, 0.428627305699733, 0.406616620047634, 0.407549449359474, 0.422000554846285, 0.422000554846285, 0.999882284730784, -0.00126574203579731, -0.0199985641944413⟩,
  ⟨0.4466836, some (-3.50350935551342), some (1.27), some (3.12531327704881), some (2.58659515524919), some (6.01114792540346), some (-1.86), some (7.5818), some (0.450316571673744), some (3.83386209270465), some (-0.00199598422676637), some (-1.12364565175177), some (-0.0223518927582323), some (-0.2), some (0.374473409173241), some (0.252660475720748), some (0.235055091457379), some (0.183007168429379), some (-0.0141764669635984), 0.556917409915955, 0.428556939649955, 0.407399107200682, 0.408409064043058, 0.422288513925629, 0.422288513925629, 0.999729428573444, -0.00141574631760527, -0.0199974867865923⟩,
  ⟨0.4570882, some (-3.50125565338797), some (1.27), some (3.11820782325576), some (2.60970898283628), some (5.99914954303194), some (-1.86), some (7.5818), some (0.450333608298315), some (3.83368604758408), some (-0.00204474768005307), some (-1.12715912704133), some (-0.0216226774729236), some (-0.2), some (0.370042022988452), some (0.249805957804459), some (0.233590562094491), some (0.18285885417572), some (-0.0165084455546451), 0.556829490574959, 0.428459349519064, 0.40816381365982, 0.409249719596548, 0.422576473005335, 0.422576473005335, 0.999463770734455, -0.00157624957671694, -0.0199957401758246⟩,
  ⟨0.4677351, some (-3.49900195137833), some (1.27), some (3.11100019140208), some (2.63302455249482), some (5.98722410593372), some (-1.86), some (7.5818), some (0.450350644836955), some (3.83351000335146), some (-0.00209426777153706), some (-1.13047501967832), some (-0.0208698880980167), some (-0.2), some (0.365519045539742), some (0.246886629430636), some (0.232054391186132), some (0.182657963850041), some (-0.0185189423049037), 0.556711856610219, 0.428328944887182, 0.408909711586425, 0.410069537834332, 0.422864432085002, 0.422864432085002, 0.999044904412925, -0.00174917527133759, -0.0199929844936565⟩,
  ⟨0.4786301, some (-3.49674824947416), some (1.27), some (3.10368757567716), some (2.65652849808682), some (5.97537468165147), some (-1.86), some (7.5818), some (0.450367681534896), some (3.83333395747274), some (-0.00214452857660792), some (-1.13358522002001), some (-0.0200952462611435), some (-0.2), some (0.360903279486865), some (0.243903139281916), some (0.230449187042092), some (0.182407516766255), some (-0.0201992737927865), 0.556559095262486, 0.428160011811474, 0.409635900588802, 0.410866764303954, 0.423152391164348, 0.423152391164348, 0.998430655689562, -0.00193667347176536, -0.0199888409804535⟩,
  ⟨0.48977881, some (-3.49449454763663), some (1.27), some (3.09626731720943), some (2.68020807899754), some (5.96360485059513), some (-1.86), some (7.5818), some (0.450384718129637), some (3.83315791266042), some (-0.00219551951870017), some (-1.13648221891163), some (-0.0193006922459755), some (-0.2), some (0.356194376631136), some (0.240856891898037), some (0.228777604108191), some (0.18211012445465), some (-0.0215323204113824), 0.556365639069492, 0.427946834539804, 0.410341608358271, 0.411639783766007, 0.423440350243253, 0.423440350243253, 0.997578946591284, -0.0021406657531667, -0.0199829335141682⟩,
  ⟨0.5011872, some (-3.49224084582441), some (1.27), some (3.08873671605848), some (2.70405233447781), some (5.9519177512607), some (-1.86), some (7.58179917562275), some (0.450402473131759), some (3.83296207864636), some (-0.00224723589448557), some (-1.13915844516073), some (-0.0184883745326409), some (-0.2), some (0.351393858852139), some (0.237750472834476), some (0.227042071807911), some (0.181767514104243), some (-0.0224853831667633), 0.556125840488361, 0.427683807727358, 0.411026187765302, 0.412387131951607, 0.423728309321705, 0.423728309321705, 0.996449342611363, -0.00236285439167508, -0.0199748997706426⟩,
  ⟨0.51286131, some (-3.48998714398016), some (1.27), some (3.0810935895562), some (2.72805432058679), some (5.94031585346064), some (-1.86), some (7.58179117172679), some (0.450426484819617), some (3.83259389943254), some (-0.002299678969964), some (-1.14160570132831), some (-0.0176606325572442), some (-0.2), some (0.346505560937123), some (0.234587335046487), some (0.225244536952242), some (0.181380371528704), some (-0.023031344363261), 0.555834041700663, 0.427365535967043, 0.411689110910574, 0.413107503763427, 0.424016268399829, 0.424016268399829, 0.995004224134492, -0.00260481757024534, -0.0199643950327168⟩,
  ⟨0.5248075, some (-3.48773344206245), some (1.27), some (3.0733352651902), some (2.75221084834435), some (5.92880206271487), some (-1.86), some (7.58178316772754), some (0.450450496817391), some (3.83222571546667), some (-0.0023528556407533), some (-1.14381705587752), some (-0.0168199726528794), some (-0.2), some (0.341534197005803), some (0.231371447404422), some (0.223386402974334), some (0.18094898261523), some (-0.023139074009801), 0.555484638445711, 0.426986918355841, 0.412329960628273, 0.413799758156103, 0.424303948195501, 0.424303981657483, 0.993209568070717, -0.00286803475510564, -0.0199510990906615⟩,
  ⟨0.5370318, some (-3.48547974004687), some (1.27), some (3.0654591101569), some (2.77652413409546), some (5.91738024859345), some (-1.86), some (7.58177516382874), some (0.450474508513793), some (3.83185753612185), some (-0.00240677765629533), some (-1.14578753879063), some (-0.0159690374085104), some (-0.2), some (0.336483056947029), some (0.228106220938904), some (0.221468795574673), some (0.180474022971463), some (-0.0228013944152137), 0.555072136401628, 0.426543216990232, 0.412948419925501, 0.414462919992462, 0.424589893106674, 0.424590126266826, 0.991035358907717, -0.00315382983502771, -0.0199347275311224⟩,
  ⟨0.5495409, some (-3.48322603794379), some (1.27), some (3.05746091492437), some (2.80099969826655), some (5.90605578428102), some (-1.86), some (7.58176715989177), some (0.450498520324691), some (3.8314893550214), some (-0.00246146042156653), some (-1.14751254158677), some (-0.0151105689600167), some (-0.2), some (0.331352995406276), some (0.224793727721817), some (0.21949265402576), some (0.179956995821144), some (-0.0220692034650045), 0.554591198608863, 0.426030109412974, 0.413544259809049, 0.415096179218491, 0.424871740470988, 0.424872362576129, 0.988455669584228, -0.00346331425175965, -0.0199150406654651⟩,
  ⟨0.5623413, some (-3.48097233579331), some (1.27), some (3.04933660584418), some (2.82564891297393), some (5.89483456902581), some (-1.86), some (7.5817591560011), some (0.450522531996709), some (3.83112117605047), some (-0.00251692142467404), some (-1.14898797945897), some (-0.0142473669807858), some (-0.2), some (0.326143725334935), some (0.221435037866182), some (0.217458234231914), some (0.179399612454569), some (-0.0210137470564944), 0.554036682879943, 0.425443725973802, 0.414117325906647, 0.415698887728, 0.425146699945482, 0.425147613336948, 0.985448464415648, -0.00379734392051316, -0.0198918481268407⟩,
  ⟨0.57543992, some (-3.47871863360716), some (1.27), some (3.04108303612473), some (2.85048998569325), some (5.88372049756228), some (-1.86), some (7.58175115207322), some (0.450546543780343), some (3.83075299536808), some (-0.00257317839667812), some (-1.15021253893289), some (-0.0133822423581282), some (-0.2), some (0.320854693442704), some (0.218030057616829), some (0.215364940499315), some (0.178802834964481), some (-0.0196785152938102), 0.553403668531493, 0.424780673656339, 0.414667524241274, 0.416271432595482, 0.425411917491465, 0.425412308967148, 0.981995180664369, -0.00415648886651231, -0.0198650100671787⟩,
  ⟨0.5888436, some (-3.47646493136774), some (1.27), some (3.03269944145509), some (2.87554998309455), some (5.87271410227005), some (-1.86), some (7.58174314817264), some (0.450570555482068), some (3.83038481594163), some (-0.00263024736696214), some (-1.15118853388157), some (-0.0125179677353733), some (-0.2), some (0.315484880039536), some (0.214577073190838), some (0.213211967744913), some (0.178166792055872), some (-0.0180939473576953), 0.552687472055402, 0.424038048138181, 0.415194806454112, 0.416817771690489, 0.4256647419856, 0.425662600168135, 0.978080143759143, -0.00454101138431792, -0.0198344363237084⟩,
  ⟨0.6025595, some (-3.47421122907068), some (1.27), some (3.0241870460729), some (2.90086386717006), some (5.86181239239193), some (-1.86), some (7.58173514426684), some (0.450594567199475), some (3.83001663627472), some (-0.00268814081119448), some (-1.15192165303293), some (-0.0116572262870331), some (-0.2), some (0.310032671918899), some (0.211073182290622), some (0.210999054008511), some (0.17749093184138), some (-0.0163160474373854), 0.551883651838972, 0.423213435974859, 0.415699154710964, 0.417344077032874, 0.425902910927399, 0.425894539300059, 0.973689865527657, -0.0049508266690723, -0.019800083445031⟩,
  ⟨0.61659491, some (-3.47195752671755), some (1.27), some (3.01554920574338), some (2.9264742174318), some (5.85100898899634), some (-1.86), some (7.58172714034619), some (0.450618578961417), some (3.82964845592494), some (-0.00274686608550811), some (-1.15242004490492), some (-0.0108025602930907), some (-0.2), some (0.304497660103936), some (0.207515386248536), some (0.208726741373851), some (0.176774558986126), some (-0.0144588182788206), 0.55098800284689, 0.422304908841719, 0.416180566462561, 0.417856946612433, 0.426124669843319, 0.426104231960928, 0.96881226618319, -0.00538551882323759, -0.0197619477414629⟩
]

/-- src/pygmm/data/bayless_abrahamson_2019.csv, part 3 of 8 -/
def table2 : List Row := [
  ⟨0.6309573, some (-3.46970382432215), some (1.27), some (3.00679134857883), some (2.95243050272371), some (5.84029410687674), some (-1.86), some (7.58171913639613), some (0.450642590811602), some (3.8292802742221), some (-0.00280642429393813), some (-1.1526927943045), some (-0.00995632130395634), some (-0.2), some (0.298882118429406), some (0.203901384590614), some (0.20639634574485), some (0.176017375645771), some (-0.012667188590278), 0.549996543119615, 0.421311011582591, 0.416639044256865, 0.418362185066734, 0.426328838108905, 0.42628796025708, 0.963435850161998, -0.00584465909753052, -0.0197200469556514⟩,
  ⟨0.6456543, some (-3.46745012189932), some (1.27), some (2.99791981352634), some (2.97878643807757), some (5.82965647111493), some (-1.86), some (7.58171113241064), some (0.450666602768074), some (3.82891209088953), some (-0.00286680965336972), some (-1.15274866990319), some (-0.00912062397494879), some (-0.2), some (0.293190563796355), some (0.200229594142282), some (0.204009710141555), some (0.175219548373792), some (-0.0110679161838378), 0.548905494530616, 0.42023074522763, 0.417074605927561, 0.418864043791884, 0.426514832226199, 0.426442279404601, 0.957549143000436, -0.00632820798720546, -0.0196743955169868⟩,
  ⟨0.6606934, some (-3.46519641946377), some (1.27), some (2.98894132116184), some (3.00559842423811), some (5.81908469475667), some (-1.86), some (7.58170312855133), some (0.450690614346021), some (3.82854391336101), some (-0.00292800932568628), some (-1.15259633903006), some (-0.00829730606980677), some (-0.2), some (0.28742890834895), some (0.196499083807846), some (0.201569119108663), some (0.174381606514732), some (-0.00974093317432256), 0.547711260251014, 0.419063545414868, 0.417487299834571, 0.419364811440757, 0.426682656004042, 0.426564089507672, 0.951141268514682, -0.00683645978259964, -0.0196249916314107⟩,
  ⟨0.676083, some (-3.46294271705233), some (1.27), some (2.97986136214986), some (3.03292222680338), some (5.80856805941928), some (-1.86), some (7.58168962252602), some (0.450734591579933), some (3.82791571788094), some (-0.00299000361939), some (-1.15224401507146), some (-0.00748789776430109), some (-0.2), some (0.281605092513624), some (0.192710223488217), some (0.199077520094341), some (0.173504598730522), some (-0.00873241974333938), 0.546410400976905, 0.417809256061405, 0.417877219956478, 0.419864667690322, 0.426832865709339, 0.426650684569299, 0.944202819684328, -0.00736988617159917, -0.0195718100475912⟩,
  ⟨0.69183093, some (-3.46068901472926), some (1.27), some (2.9706853131115), some (3.06081458397963), some (5.79809730857046), some (-1.86), some (7.58167258597595), some (0.450791380080166), some (3.82712067887768), some (-0.00305276645635687), some (-1.15169904829259), some (-0.00669360425185028), some (-0.2), some (0.275728471985731), some (0.18886514166781), some (0.196538478715525), some (0.172589826234298), some (-0.0080754331685271), 0.544999611533587, 0.416468097954316, 0.418244520667122, 0.420361730122207, 0.426966517159625, 0.426699781008831, 0.936726721770139, -0.00792911512543733, -0.0195147950556596⟩,
  ⟨0.7079458, some (-3.45843531248224), some (1.27), some (2.96141705921507), some (3.08933065473896), some (5.78766455858484), some (-1.86), some (7.58165554929511), some (0.450848169016312), some (3.82632563377164), some (-0.00311626604002535), some (-1.15096708116245), some (-0.00591530619561037), some (-0.2), some (0.269808791174204), some (0.184967784047668), some (0.193955515825189), some (0.171638252155875), some (-0.00779746498905354), 0.543475699079905, 0.415040632209188, 0.418589430961584, 0.420852236411738, 0.427085100720971, 0.426709528115019, 0.928709055882966, -0.00851534162927892, -0.0194538467180361⟩,
  ⟨0.72443592, some (-3.45618161023161), some (1.27), some (2.9520596897689), some (3.11852519591857), some (5.77726402327087), some (-1.86), some (7.5816385127316), some (0.450904957561349), some (3.82553059414111), some (-0.00318046568543994), some (-1.15005093516768), some (-0.00515357999839914), some (-0.2), some (0.263856836451793), some (0.181023586014156), some (0.191331572200167), some (0.170650196347868), some (-0.00791987999827848), 0.541835563632556, 0.413527719080402, 0.418910881070825, 0.421330814857897, 0.427190469147126, 0.426678503009985, 0.920149798215203, -0.00913080612316814, -0.0193888080257838⟩,
  ⟨0.74131023, some (-3.45392790789463), some (1.27), some (2.94261490757156), some (3.14845140952774), some (5.76689143957903), some (-1.86), some (7.58162147608118), some (0.450961746396058), some (3.82473555045519), some (-0.0032453247774593), some (-1.14895166130224), some (-0.00440873364029947), some (-0.2), some (0.257885752685835), some (0.177038690683275), some (0.188669066907507), some (0.16962519125084), some (-0.00843709592838904), 0.540076195250035, 0.411930488251233, 0.419202166618357, 0.421790805741632, 0.427284762147623, 0.426605692748709, 0.9110534198247, -0.00977912866065668, -0.0193194572051882⟩,
  ⟨0.7585776, some (-3.45167420543381), some (1.27), some (2.93308341665536), some (3.17916143725491), some (5.75654461530989), some (-1.86), some (7.58160443942479), some (0.451018535250714), some (3.82394050649001), some (-0.00331079982650749), some (-1.14767060529261), some (-0.00368085055359386), some (-0.2), some (0.251912390903793), some (0.173019438606936), some (0.185970363012663), some (0.168562407236444), some (-0.00930482554026746), 0.538194730499197, 0.410250367974229, 0.419452740878257, 0.422224604193883, 0.427370330763567, 0.42649046613301, 0.901429283543375, -0.010465402330206, -0.0192455081875844⟩,
  ⟨0.7762471, some (-3.44942050284377), some (1.27), some (2.92346429791581), some (3.21070477580562), some (5.74622403015641), some (-1.86), some (7.58158740284423), some (0.451075323852568), some (3.82314546606405), some (-0.00337684559296544), some (-1.14620953533324), some (-0.00296983449837412), some (-0.2), some (0.245957960172308), some (0.168972804915507), some (0.183238065238186), some (0.16746130349285), some (-0.0104556015946211), 0.536188525446037, 0.40848912912371, 0.419650933497702, 0.422624002240197, 0.427449664027569, 0.426332537743832, 0.891291770353132, -0.0111958752442144, -0.0191666252563751⟩,
  ⟨0.79432821, some (-3.44716680017743), some (1.27), some (2.91375496544083), some (3.24312753586869), some (5.73593262159765), some (-1.86), some (7.58157036623065), some (0.451132112564507), some (3.8223504240969), some (-0.00344341625059402), some (-1.14456962785381), some (-0.00227544947986251), some (-0.2), some (0.240047300273136), some (0.164906383329553), some (0.180474811077526), some (0.166322250504406), some (-0.0118001018770983), 0.534055229735815, 0.4066489273107, 0.419785893348714, 0.422980513448502, 0.427525319879376, 0.426131926542196, 0.88066006895243, -0.0119775861251169, -0.0190824388840511⟩,
  ⟨0.81283044, some (-3.44491309759735), some (1.27), some (2.90395199925871), some (3.27647328296911), some (5.72567502977819), some (-1.86), some (7.58155332965619), some (0.451188901146048), some (3.82155538395533), some (-0.00351046655670339), some (-1.14275081077943), some (-0.00159734935990862), some (-0.2), some (0.234207049780106), some (0.160827698484618), some (0.177682877629443), some (0.165146348797117), some (-0.0132543071251483), 0.531792860390099, 0.404732340450723, 0.419848884428637, 0.42328566829173, 0.427599861833483, 0.425888911140825, 0.869557571498004, -0.0128180428143164, -0.0189925593254552⟩,
  ⟨0.8317637, some (-3.44265939530011), some (1.27), some (2.89405107229876), some (3.31078210684725), some (5.71545717649163), some (-1.86), some (7.58153629302934), some (0.451245689902189), some (3.82076034136936), some (-0.00357795299398386), some (-1.14075290857231), some (-0.000935094659526994), some (-0.2), some (0.228463242508728), some (0.156743210561269), some (0.174864202749686), some (0.163935165446706), some (-0.0147515889254994), 0.529399874191794, 0.402742399416835, 0.41983405127075, 0.423531272120755, 0.427675802416204, 0.425603983553763, 0.858010838369853, -0.0137248076346726, -0.0188965902684435⟩,
  ⟨0.8511381, some (-3.44040569336991), some (1.27), some (2.88404749452312), some (3.34609101075772), some (5.705285695878), some (-1.86), some (7.58151925629161), some (0.451302479027959), some (3.81996529360857), some (-0.00364583484885891), some (-1.13857672818052), some (-0.000288159206262725), some (-0.2), some (0.222838220055097), some (0.152657891858109), some (0.172020805963089), some (0.16269072749926), some (-0.016237189694857), 0.526875237558076, 0.400682610112392, 0.419738759031853, 0.423709620718259, 0.42775555396046, 0.42527780289197, 0.846048126844621, -0.014704684272009, -0.0187941478482755⟩,
  ⟨0.8709636, some (-3.4381519917588), some (1.27), some (2.87393685962637), some (3.38243481004577), some (5.69516736468173), some (-1.86), some (7.58150221971604), some (0.451359267613205), some (3.81917025341513), some (-0.00371407519648976), some (-1.13622445931336), some (0.000344067650301568), some (-0.2), some (0.217349940211133), some (0.148575381326863), some (0.169155090874842), some (0.161415430019616), some (-0.0176620315013767), 0.524218492591262, 0.398556966247658, 0.419563603588635, 0.423813670898887, 0.427841386996058, 0.424911150065466, 0.833697526528298, -0.015763128599282, -0.0186848750036575⟩,
  ⟨0.8912509, some (-3.43589829031668), some (1.27), some (2.86371479391487), some (3.41984545073228), some (5.68510824176705), some (-1.86), some (7.58148518313547), some (0.451416056215111), some (3.81837521298844), some (-0.00378264177314678), some (-1.13369781288088), some (0.000962279799449051), some (-0.2), some (0.212012831031776), some (0.144498849493619), some (0.166269447822987), some (0.160111540928786), some (-0.0189745197834919), 0.521429817847099, 0.396369952906684, 0.419312177448711, 0.423837165776529, 0.427935396298102, 0.42450488420643, 0.820984812005844, -0.0169042721772238, -0.0185684454408454⟩,
  ⟨0.9120108, some (-3.4336445888487), some (1.27), some (2.85337814835338), some (3.45835456575124), some (5.67511261100774), some (-1.86), some (7.58146814651498), some (0.451472844950081), some (3.81758017069886), some (-0.00385150772926483), some (-1.13099634549908), some (0.00156725300127874), some (-0.2), some (0.206838190966418), some (0.140431766765733), some (0.163365819437516), some (0.158780878719902), some (-0.0201395676716927), 0.518510082260203, 0.394126541240905, 0.41899066721378, 0.423774716142792, 0.42803947444056, 0.424059901367255, 0.807931213651761, -0.0181311503667851, -0.0184445659516274⟩,
  ⟨0.93325424, some (-3.43139088718296), some (1.27), some (2.84292497042484), some (3.49799365243198), some (5.66518294400956), some (-1.86), some (7.58145110991049), some (0.451529633631714), some (3.816785129156), some (-0.00392065226708311), some (-1.12811795320095), some (0.00215984283920787), some (-0.2), some (0.201833760146658), some (0.13637809245777), some (0.16044568346818), some (0.157425061431285), some (-0.0211471198310571), 0.515460890596375, 0.391832174437149, 0.418607346408003, 0.423621840882334, 0.428155292475583, 0.423577095996687, 0.794551424994054, -0.0194462581128154, -0.0183129793771676⟩,
  ⟨0.9549925, some (-3.42913718523342), some (1.27), some (2.83235389325746), some (3.5387929531826), some (5.65532064276142), some (-1.86), some (7.58143407330817), some (0.451586422306101), some (3.81599008771458), some (-0.00399006117190646), some (-1.12505928326919), some (0.0027409815734151), some (-0.2), some (0.19700474190185), some (0.132341901132664), some (0.157509917027341), some (0.156045516694971), some (-0.0219947175891599), 0.512284618612647, 0.389492744672935, 0.418172014541853, 0.423374970483693, 0.428284287208447, 0.423057325554069, 0.780852314116464, -0.0208525148686477, -0.0181734656022235⟩,
  ⟨0.9772371, some (-3.42688348295682), some (1.27), some (2.82166411639463), some (3.58078159919203), some (5.64552620930801), some (-1.86), some (7.58141703671234), some (0.451643210958865), some (3.81519504657589), some (-0.00405972724387207), some (-1.12181533040438), some (0.00331167359370285), some (-0.2), some (0.192354711552637), some (0.128326945866255), some (0.154558497840861), some (0.154643289388168), some (-0.0226690491412627), 0.508984435988473, 0.387114560158253, 0.417695421187024, 0.423031418643105, 0.428427654457717, 0.422501378312123, 0.766832992147387, -0.022354195666547, -0.0180258419197146⟩,
  ⟨1, some (-3.42462978034773), some (1.27), some (2.81085524644915), some (3.6239875328614), some (5.63579925238322), some (-1.86), some (7.5814), some (0.4517), some (3.8144), some (-0.0041296506287047), some (-1.11837939643176), some (0.00387298927838897), some (-0.2), some (0.187885793800162), some (0.12433636143791), some (0.15159094871615), some (0.153219130194101), some (-0.0231363921941035), 0.505564315252483, 0.384704300835637, 0.417188704075653, 0.422589327549432, 0.428586347557115, 0.42190994408214, 0.752487118225351, -0.0239576962932065, -0.0178699644133332⟩,
  ⟨1.023293, some (-3.42237607743027), some (1.27), some (2.79992717544555), some (3.6684376869631), some (5.6261394744008), some (-1.86), some (7.58135197644759), some (0.451812054955626), some (3.81277520314343), some (-0.00419983903554276), some (-1.11474381930174), some (0.00442605717037106), some (-0.2), some (0.183598175602317), some (0.12037293520698), some (0.148606835819198), some (0.151773600171311), some (-0.0233889976825776), 0.502029025264942, 0.382268961131073, 0.416662863074316, 0.422047592559567, 0.428761080212174, 0.42128358738301, 0.737807086233627, -0.0256720800042303, -0.0177057309145881⟩,
  ⟨1.047129, some (-3.42012237425466), some (1.27), some (2.78887893714395), some (3.71415590879414), some (5.61654702020923), some (-1.86), some (7.58130395202647), some (0.451924111938243), some (3.81115037689548), some (-0.00427030782295981), some (-1.11090072347398), some (0.0049720544884686), some (-0.2), some (0.179490030841166), some (0.116439763341789), some (0.145605942882677), some (0.150306738903161), some (-0.0234571358361513), 0.49838410822149, 0.379815778158216, 0.416128286490104, 0.421405772121673, 0.428952401374937, 0.420622782875686, 0.722785112851909, -0.027508734363102, -0.0175330838940339⟩,
  ⟨1.0715192, some (-3.41786867092887), some (1.27), some (2.77771135672254), some (3.76117029682801), some (5.60702146252433), some (-1.86), some (7.5812559295948), some (0.452036164278791), some (3.80952561795753), some (-0.00434107993355266), some (-1.10684262292697), some (0.00551219609672962), some (-0.2), some (0.175557151503431), some (0.112540923583901), some (0.142588067063027), some (0.148818020408105), some (-0.02339808262054), 0.494635839539679, 0.377352143932906, 0.415594341888698, 0.420663988862472, 0.429160977341481, 0.419928142490434, 0.707413233352868, -0.0294796603023425, -0.017352013881264⟩,
  ⟨1.096478, some (-3.41561496759946), some (1.27), some (2.76642398310951), some (3.80950693558693), some (5.59756094055053), some (-1.86), some (7.58120790622638), some (0.452148218805121), some (3.80790082732575), some (-0.004412185660713), some (-1.10256361489357), some (0.00604772213999074), some (-0.2), some (0.171794093977087), some (0.108681532713817), some (0.139552855624247), some (0.147306638858804), some (-0.0232765318568458), 0.490791170543081, 0.37488550088939, 0.4150690404529, 0.419822827636285, 0.429387664942553, 0.41920049883894, 0.69168329737086, -0.0315959751639969, -0.0171625627617579⟩,
  ⟨1.1220182, some (-3.41336126441817), some (1.27), some (2.75428287210341), some (3.85728772106568), some (5.58816202201096), some (-1.86), some (7.58115988278931), some (0.452260273491602), some (3.80627603437177), some (-0.00448366223523917), some (-1.09805964329868), some (0.00657988459781613), some (-0.2), some (0.168196954643686), some (0.104867724741498), some (0.136500059876944), some (0.145771520398404), some (-0.0231372128815002), 0.486857654422505, 0.37242322144429, 0.414558781189056, 0.418883236138447, 0.429633514066668, 0.418440936352117, 0.675586964532336, -0.0338672092447527, -0.0169648324394401⟩,
  ⟨1.1481534, some (-3.411107561471), some (1.27), some (2.74195668868151), some (3.90619797711811), some (5.57881991638729), some (-1.86), some (7.58111185918228), some (0.452372328574669), some (3.80465123566729), some (-0.00455555322577208), some (-1.09332887032924), some (0.00710993299889021), some (-0.2), some (0.16476379031158), some (0.101106487408737), some (0.1334294770167), some (0.144211396013423), some (-0.0230088777610025), 0.482843356621997, 0.369972474206006, 0.414068178370646, 0.417846433384519, 0.429899767731796, 0.417650819324045, 0.659115700156876, -0.0363008947783522, -0.0167589944631957⟩,
  ⟨1.1748973, some (-3.40885385877483), some (1.27), some (2.72947920559216), some (3.95634822955744), some (5.56952880026348), some (-1.86), some (7.58106383569581), some (0.452484383376434), some (3.80302644104171), some (-0.00462790775667866), some (-1.08837159284391), some (0.00763909949211273), some (-0.2), some (0.161492557991797), some (0.0974046834263371), some (0.130340713088565), some (0.142624990807089), some (-0.0229304877844281), 0.478756751596139, 0.367540081228495, 0.41359997410533, 0.416713830765994, 0.430187858289212, 0.416831814888504, 0.642260770795486, -0.0389024367229784, -0.0165452899321541⟩,
  ⟨1.2022641, some (-3.40660015629227), some (1.27), some (2.71689438277408), some (4.00788618883397), some (5.56028271283218), some (-1.86), some (7.58101581228706), some (0.452596437996868), some (3.80140164904541), some (-0.00470077955851589), some (-1.0831894850759), some (0.00816858342621782), some (-0.2), some (0.158379766632953), some (0.0937681565333429), some (0.127233269927588), some (0.141010902872796), some (-0.0229454058664502), 0.474606608978102, 0.365132372226398, 0.413155037679397, 0.415486969586855, 0.430499398378488, 0.415985909123379, 0.625013239597321, -0.0416753433049907, -0.0163240198500207⟩,
  ⟨1.230269, some (-3.40434645394045), some (1.27), some (2.70425720076514), some (4.06100148650687), some (5.55107595490626), some (-1.86), some (7.58096778778137), some (0.452708495176816), some (3.79977681993616), some (-0.00477422587730972), some (-1.07778572098105), some (0.00869953557178364), some (-0.2), some (0.155421171644987), some (0.0902011248568971), some (0.124106767515656), some (0.139367711999909), some (-0.0230881505034324), 0.470401873670618, 0.362755042849244, 0.412732453548749, 0.414167478172287, 0.430836165571003, 0.415115414695614, 0.60736396159243, -0.0446214676373056, -0.0160955369415471⟩,
  ⟨1.258926, some (-3.40209275164572), some (1.27), some (2.69161814304293), some (4.11588318336707), some (5.5419037844741), some (-1.86), some (7.58091976365875), some (0.45282055146291), some (3.7981520037878), some (-0.00484830627806962), some (-1.0721644874031), some (0.00923304213385668), some (-0.2), some (0.152612993696545), some (0.0867060504260763), some (0.120960828183318), some (0.137693778125781), some (-0.02336898359655), 0.466151546081829, 0.360413025219231, 0.412329675672499, 0.41275705064317, 0.431200080012237, 0.414222968587582, 0.589307032345503, -0.047740744258129, -0.0158602437449855⟩,
  ⟨1.28825, some (-3.39983904933332), some (1.27), some (2.67901929604042), some (4.1727056712468), some (5.53276299596386), some (-1.86), some (7.58087174037075), some (0.452932605801587), some (3.79652721587699), some (-0.00492308138528791), some (-1.06633039171345), some (0.00977010875536839), some (-0.2), some (0.149951381938032), some (0.0832841212256152), some (0.11779504228266), some (0.135986912811259), some (-0.0238042702664054), 0.461864570789395, 0.358110380592699, 0.411942656936002, 0.411257448205071, 0.431593174682935, 0.413311518655343, 0.57085319436644, -0.0510309435480042, -0.0156185914913312⟩,
  ⟨1.318257, some (-3.39758534696706), some (1.27), some (2.66649674488961), some (4.23163200193934), some (5.52365161282526), some (-1.86), some (7.58082371714623), some (0.453044659992128), some (3.79490243011415), some (-0.00499861160936064), some (-1.06028746677045), some (0.010311644814259), some (-0.2), some (0.147431634568769), some (0.0799355890196077), some (0.114608915014606), some (0.134244742893388), some (-0.024401685220433), 0.457549744421666, 0.35585022647064, 0.41156599539492, 0.409670522385073, 0.432017558172095, 0.412384298191517, 0.552037906369122, -0.0544876287171155, -0.0153710793673454⟩,
  ⟨1.348963, some (-3.39533164455413), some (1.27), some (2.65408141726884), some (4.29281352323296), some (5.51456818156071), some (-1.86), some (7.58071377253105), some (0.453214969958602), some (3.79254790555887), some (-0.00507495591272276), some (-1.05403889981132), some (0.0108584484725795), some (-0.2), some (0.145047525574461), some (0.0766599019152431), some (0.111401744496855), some (0.132464996531833), some (-0.0251156737931493), 0.453215656259125, 0.35363471369201, 0.411193113534437, 0.407998258057532, 0.432475370099005, 0.411444788191808, 0.532922693660382, -0.0581042763771439, -0.0151182527907656⟩,
  ⟨1.3803842, some (-3.39307794210242), some (1.27), some (2.64179109604872), some (4.35636217264756), some (5.50551151597265), some (-1.86), some (7.58054340731368), some (0.453442123581766), some (3.78948133164616), some (-0.00515217067157096), some (-1.04758873542442), some (0.0114111931065921), some (-0.2), some (0.14279113524201), some (0.0734555987848961), some (0.108172588359794), some (0.130645527274179), some (-0.0258798191403282), 0.448870678181566, 0.351465072721394, 0.410816463903525, 0.406242832225326, 0.432968729553749, 0.410496667470225, 0.513592244049471, -0.0618724608038885, -0.014860699450686⟩,
  ⟨1.4125374, some (-3.39082423963046), some (1.27), some (2.62962650557325), some (4.4223326969985), some (5.49648058278474), some (-1.86), some (7.58037304151732), some (0.453669277976904), some (3.7864147473118), some (-0.00523030868657675), some (-1.04094231851723), some (0.0119704158756371), some (-0.2), some (0.140653428847776), some (0.0703202251837258), some (0.104920556065352), some (0.128784306403951), some (-0.0266439460364873), 0.444523024317912, 0.349341752380488, 0.410427751821018, 0.404406682235596, 0.433499677290604, 0.409543751109361, 0.494149116805912, -0.0657820249871341, -0.0145990438326627⟩,
  ⟨1.44544, some (-3.38857053716235), some (1.27), some (2.61757216645633), some (4.49071887021002), some (5.48747441875257), some (-1.86), some (7.58020267337866), some (0.453896435495118), some (3.7833481208159), some (-0.00530941838784815), some (-1.03410621233324), some (0.0125365092245606), some (-0.2), some (0.138624620558817), some (0.0672510835941365), some (0.101645234786843), some (0.126879665213637), some (-0.0273759089963099), 0.440180904958374, 0.347264678676156, 0.410018505080734, 0.402492678942408, 0.434070112778776, 0.408589918027205, 0.474707436641904, -0.0698210750007094, -0.0143339416203032⟩,
  ⟨1.4791082, some (-3.38631683477828), some (1.27), some (2.60561063608378), some (4.56149572238505), some (5.47849214802008), some (-1.86), some (7.58003230928582), some (0.45412358761891), some (3.78028156714472), some (-0.00538954326556406), some (-1.02708817836737), some (0.0131097160244165), some (-0.2), some (0.136695392295709), some (0.0642454690451601), some (0.0983468736595387), some (0.124930857958515), some (-0.0280466147111413), 0.435852732946677, 0.345233589091875, 0.409581629588446, 0.400504601331937, 0.434681727522847, 0.407639028695562, 0.455386538995801, -0.0739758851787291, -0.0140660730161364⟩,
  ⟨1.513561, some (-3.38406313260613), some (1.27), some (2.59373349529649), some (4.63465772617133), some (5.4695342752912), some (-1.86), some (7.57986194335139), some (0.454350742198149), some (3.77721498032499), some (-0.0054707215395045), some (-1.0198974723856), some (0.013690128822497), some (-0.2), some (0.134859102989352), some (0.061300604768068), some (0.0950260798529375), some (0.122938100676824), some (-0.0286363966593273), 0.431547143305591, 0.343248181173462, 0.409111801685049, 0.398447269859802, 0.435335936332166, 0.40669483432213, 0.436305206756337, -0.0782316444103375, -0.013796127961253⟩,
  ⟨1.5488164, some (-3.38180943075245), some (1.27), some (2.58194281560664), some (4.71022934237675), some (5.46060330397686), some (-1.86), some (7.57969157697509), some (0.454577897366551), some (3.77414838555157), some (-0.00555298606077276), some (-1.01254363033465), some (0.0142776933168794), some (-0.2), some (0.133112345208075), some (0.0584135456885083), some (0.0916838073608856), some (0.120901740654337), some (-0.0291291382738352), 0.427272951705778, 0.341308198701519, 0.408605462818026, 0.396326511398345, 0.436033808638673, 0.405760879265125, 0.417576881949469, -0.0825735184396399, -0.0135247888806508⟩
]

/-- src/pygmm/data/bayless_abrahamson_2019.csv, part 4 of 8 -/
def table3 : List Row := [
  ⟨1.584893, some (-3.3795557292558), some (1.27), some (2.57024846846475), some (4.78826209640198), some (5.45170340476983), some (-1.86), some (7.57952121062018), some (0.454805052506428), some (3.77108179116322), some (-0.0056363644205249), some (-1.00503485472555), some (0.0148722157714416), some (-0.2), some (0.131452125987491), some (0.0555814808252508), some (0.088321536216152), some (0.118821770727198), some (-0.0294970402555843), 0.423039109944836, 0.339413511296375, 0.40806078466816, 0.394149065381713, 0.436776002650459, 0.404840399159801, 0.399306039627536, -0.0869875522632626, -0.0132527171814601⟩,
  ⟨1.62181, some (-3.37730202804989), some (1.27), some (2.5586647573345), some (4.86882828557304), some (5.44283948012355), some (-1.86), some (7.57935084395824), some (0.45503220805568), some (3.76801519124832), some (-0.00572087922612332), some (-0.99737757680703), some (0.0154733737572573), some (-0.2), some (0.129873739997995), some (0.0528021069029537), some (0.0849412953586082), some (0.116697632225816), some (-0.029731884118013), 0.418854659510673, 0.337564185234721, 0.407477604072053, 0.391922542578842, 0.437562705923043, 0.403936218141238, 0.381585766178352, -0.091461721886918, -0.0129805415597063⟩,
  ⟨1.659587, some (-3.37504832695829), some (1.27), some (2.54721163591978), some (4.95203060731457), some (5.43401635983518), some (-1.86), some (7.57918047689379), some (0.455259364141616), some (3.76494858408819), some (-0.00580654849637624), some (-0.989576099050072), some (0.0160807294181051), some (-0.2), some (0.128372251709519), some (0.0500732729584435), some (0.0815453976788459), some (0.114528070508267), some (-0.0298524367781696), 0.414728683432156, 0.335760544053773, 0.406857328253223, 0.389655388134532, 0.43839358677587, 0.403050649733859, 0.364496482652387, -0.0959872414588374, -0.0127088449573912⟩,
  ⟨1.698244, some (-3.37279462573596), some (1.27), some (2.5359154720025), some (5.03801036187374), some (5.42523890073895), some (-1.86), some (7.57901010958469), some (0.455486520553754), some (3.76188197252433), some (-0.0058933861247473), some (-0.981633644737446), some (0.0166937443990851), some (-0.2), some (0.126944167714594), some (0.0473926249037726), some (0.0781360983564588), some (0.112311130291207), some (-0.0298642579586637), 0.410670255944178, 0.334003218001405, 0.406202810682037, 0.387356822064163, 0.439267762009018, 0.402185407533163, 0.348105688177312, -0.100559768037153, -0.0124381545179809⟩,
  ⟨1.737801, some (-3.37054092420391), some (1.27), some (2.52480196181135), some (5.12692368371049), some (5.41651220045813), some (-1.86), some (7.5788397441621), some (0.455713674450533), some (3.7588153949178), some (-0.00598140236184881), some (-0.973553292704426), some (0.0173117955867079), some (-0.2), some (0.125588389750955), some (0.044757722485304), some (0.0747157652724608), some (0.11004467205639), some (-0.0297531401949565), 0.406688389281759, 0.332293181561071, 0.405518196482364, 0.385036756037388, 0.440183787554816, 0.401341533697696, 0.332468562000528, -0.10518025610575, -0.0121689357948093⟩,
  ⟨1.7782794, some (-3.36828722227248), some (1.27), some (2.51388882410874), some (5.21891203754027), some (5.40784177548697), some (-1.86), some (7.57866937872537), some (0.45594082836617), some (3.75574881705671), some (-0.00607060427485448), some (-0.965337444040913), some (0.0179341908418472), some (-0.2), some (0.124305721758388), some (0.0421658678555113), some (0.0712871489739136), some (0.107726665223164), some (-0.0294982423819783), 0.402791977074767, 0.330631778410197, 0.404808735669159, 0.382705686305139, 0.441139679840558, 0.400519355396383, 0.317629249889348, -0.109855317259277, -0.0119015936054893⟩,
  ⟨1.819701, some (-3.36603351992357), some (1.27), some (2.5031854910068), some (5.31409766295167), some (5.39923395214024), some (-1.86), some (7.57849901190109), some (0.456167984131876), some (3.75268221421968), some (-0.0061609961504881), some (-0.956987240545875), some (0.0185601839693639), some (-0.2), some (0.123098280308525), some (0.0396140863770366), some (0.0678530909058828), some (0.105355434540349), some (-0.029081922976292), 0.398989734247251, 0.329020733357967, 0.404080564290263, 0.380374563689089, 0.442132976867587, 0.399718481582679, 0.303622664400508, -0.114597187846334, -0.0116364755991206⟩,
  ⟨1.862087, some (-3.36377981724049), some (1.27), some (2.49269154218216), some (5.41257296172581), some (5.390695357883), some (-1.86), some (7.57832864681139), some (0.456395137584812), some (3.74961564260503), some (-0.00625257981936801), some (-0.948501969882355), some (0.0191889882830045), some (-0.2), some (0.121967784022095), some (0.0370993734045581), some (0.0644163920268688), some (0.102929803821221), some (-0.0285040063479185), 0.395290133991515, 0.327462151370597, 0.403340457016345, 0.378054642423628, 0.443160849452071, 0.398937854814233, 0.290476646419141, -0.119423241049279, -0.0113738770645473⟩,
  ⟨1.905461, some (-3.36152611438308), some (1.27), some (2.48240456981063), some (5.51443167739507), some (5.38223216881005), some (-1.86), some (7.5781582789656), some (0.456622294712533), some (3.7465490213808), some (-0.00634535489249718), some (-0.939879240008863), some (0.0198197883007219), some (-0.2), some (0.12091424376129), some (0.0346186672386442), some (0.0609795512565761), some (0.100448805910418), some (-0.0277816738172323), 0.391701343207734, 0.325958504860846, 0.402595557722106, 0.375757310503806, 0.444220274614, 0.398175875484916, 0.278214362175354, -0.124354052268597, -0.0111140477297578⟩,
  ⟨1.9498444, some (-3.35927241155855), some (1.27), some (2.47231860429306), some (5.61976209560353), some (5.37385020079154), some (-1.86), some (7.57798791461114), some (0.456849447185151), some (3.74348246300046), some (-0.00643931891474509), some (-0.931116923075745), some (0.0204517493468073), some (-0.2), some (0.1199361060829), some (0.0321690588142985), some (0.0575446260078857), some (0.0979116620348157), some (-0.026947600949478), 0.388231158444063, 0.324512611889319, 0.401853096193445, 0.373493905111224, 0.445308284517565, 0.397430618939175, 0.266856842743862, -0.129409439816394, -0.0108571995462514⟩,
  ⟨1.9952621, some (-3.35702047253343), some (1.27), some (2.46242922566154), some (5.72867196662674), some (5.36555548500144), some (-1.86), some (7.57781754844267), some (0.45707660207644), some (3.74041587196805), some (-0.00653446745301997), some (-0.922213468051152), some (0.0210840251341166), some (-0.2), some (0.119032048061492), some (0.0297485235856175), some (0.0541134561988682), some (0.0953179261855823), some (-0.0260396773458189), 0.38488694462801, 0.32312760911625, 0.401120099833857, 0.371275517753381, 0.446422305592075, 0.396700169452177, 0.256424716694701, -0.134604978137821, -0.0106035135847713⟩,
  ⟨2.041738, some (-3.35477581898247), some (1.27), some (2.45274144665807), some (5.84133183588073), some (5.35735455368154), some (-1.86), some (7.57740199087736), some (0.457433216939887), some (3.73587925209476), some (-0.00663079414538116), some (-0.913167979856692), some (0.0217157637069142), some (-0.2), some (0.11820191616014), some (0.0273566555260171), some (0.0506877976105154), some (0.0926675931171699), some (-0.0250948079274891), 0.381675579047733, 0.321806923592977, 0.400403109852247, 0.369112794828805, 0.447560603665853, 0.395983098828492, 0.2469364183528, -0.139949641531638, -0.0103531458602782⟩,
  ⟨2.089296, some (-3.35254095935432), some (1.27), some (2.44325912527014), some (5.95793156684352), some (5.34925462969491), some (-1.86), some (7.57695828200666), some (0.457804694133963), some (3.73117387430313), some (-0.00672829073917094), some (-0.903979684159768), some (0.0223461123632954), some (-0.2), some (0.117445869608546), some (0.0249946887205423), some (0.0472690278376442), some (0.0899610243755496), some (-0.0241439780259451), 0.37860340306578, 0.320554246613425, 0.39970791237069, 0.367015740102429, 0.448722511260697, 0.395278821207098, 0.238405488195711, -0.145445763609534, -0.0101062297914019⟩,
  ⟨2.137962, some (-3.35031722076146), some (1.27), some (2.43397214043181), some (6.07861621846112), some (5.3412637960811), some (-1.86), some (7.57651457100665), some (0.458176173110712), some (3.72646847393098), some (-0.00682694714092459), some (-0.894647658285731), some (0.0229742222828916), some (-0.2), some (0.116764052092639), some (0.0226646522235994), some (0.0438580795539395), some (0.0871986259012208), some (-0.0232088090204274), 0.375676183683189, 0.319373511696581, 0.399039296452351, 0.364993525972425, 0.449907496845991, 0.39458696531955, 0.230837897119722, -0.151093212656463, -0.00986287079314067⟩,
  ⟨2.187761, some (-3.34809674061271), some (1.27), some (2.42485383265724), some (6.20346442486667), some (5.33339227868768), some (-1.86), some (7.57607086509596), some (0.458547647826641), some (3.72176312752922), some (-0.00692675149016281), some (-0.885170690291737), some (0.0235992535486798), some (-0.2), some (0.116156637590407), some (0.020369180621292), some (0.0404554965637729), some (0.0843803468880379), some (-0.0223074334232081), 0.372899086355965, 0.318268877682861, 0.398400853154816, 0.363054320558816, 0.451114866472033, 0.393907167745855, 0.224229493559823, -0.156893574572006, -0.00962314258579023⟩,
  ⟨2.2387211, some (-3.34585516704154), some (1.27), some (2.41587353930911), some (6.33254546431187), some (5.32565272998155), some (-1.86), some (7.57562714933229), some (0.458919130791572), some (3.71705767664009), some (-0.00702769025641272), some (-0.875547976569648), some (0.0242203810938252), some (-0.2), some (0.115624328551613), some (0.0181114773817905), some (0.0370617600261348), some (0.0815054530433673), some (-0.021441541706368), 0.370276659805198, 0.317244716983253, 0.39779483157973, 0.361205137758828, 0.452343749265114, 0.393239069282867, 0.218563710520943, -0.16285339247174, -0.0093870893510756⟩,
  ⟨2.290868, some (-3.34357243531332), some (1.27), some (2.40700755034488), some (6.46597688879323), some (5.31805971832817), some (-1.86), some (7.57518343547967), some (0.459290612156551), some (3.71235224601702), some (-0.00712974834744232), some (-0.865780458485579), some (0.0248368018564598), some (-0.2), some (0.115169187883707), some (0.0158952452802171), some (0.0336776056633614), some (0.0785726905786789), some (-0.0205917031026734), 0.36781283272534, 0.316305608072832, 0.397222069845952, 0.359451717594498, 0.453593084312362, 0.392582307381538, 0.213809703172162, -0.168985983427377, -0.00915473245496166⟩,
  ⟨2.344229, some (-3.34124229112174), some (1.27), some (2.3982395418058), some (6.60393003521412), some (5.31062854392826), some (-1.86), some (7.57473972628256), some (0.459662089623903), some (3.7076468647639), some (-0.00723290920969452), some (-0.855869446741381), some (0.0254477431261871), some (-0.2), some (0.114793758329554), some (0.0137242327231433), some (0.0303039555554639), some (0.0755804526848486), some (-0.0197271374438821), 0.365510921198755, 0.315456330463848, 0.396682021149031, 0.357798444175163, 0.454861609286949, 0.391936506215679, 0.209921113077729, -0.175310317040633, -0.00892608349466349⟩,
  ⟨2.398833, some (-3.33886435575065), some (1.27), some (2.38957044671125), some (6.74669211901272), some (5.30337411573878), some (-1.86), some (7.57429601655033), some (0.460033567539257), some (3.70294147783608), some (-0.00733715490089636), some (-0.845816191439779), some (0.0260524717673611), some (-0.2), some (0.114499440035386), some (0.0116020065959112), some (0.0269419473089335), some (0.072527132406778), some (-0.0188194754078999), 0.363373644731537, 0.314701860091024, 0.396172896795491, 0.356248308325495, 0.456147851552411, 0.391301266115799, 0.206835668224561, -0.181847814675403, -0.00870116157380073⟩,
  ⟨2.454709, some (-3.33644406864685), some (1.27), some (2.38102011280088), some (6.89468689283222), some (5.29631005421672), some (-1.86), some (7.57385230593915), some (0.460405046190482), some (3.69823608158723), some (-0.00744246611941052), some (-0.835623268594596), some (0.0266503037623457), some (-0.2), some (0.114285285533658), some (0.00953188557511392), some (0.0235930122229513), some (0.0694113766179442), some (-0.0178618379903397), 0.361403148635716, 0.314047363381049, 0.395691949634404, 0.354802921547657, 0.457450122500271, 0.390676153926554, 0.204475823793894, -0.188619043971675, -0.00848000844399635⟩,
  ⟨2.5118863, some (-3.33398940949649), some (1.27), some (2.37259983705624), some (7.04831056630959), some (5.28944849126909), some (-1.86), some (7.57327741430139), some (0.460795629411257), some (3.69332441775473), some (-0.00754882218312297), some (-0.825295260048552), some (0.027240613379048), some (-0.2), some (0.114148324389279), some (0.0075166491352695), some (0.0202587081545694), some (0.0662320404175744), some (-0.0168451192326584), 0.359601030883523, 0.313498189129568, 0.39523592352512, 0.353462587402129, 0.458766515753831, 0.390060695561152, 0.202750619332115, -0.195640181215297, -0.00826270381993238⟩,
  ⟨2.570396, some (-3.33150821850159), some (1.27), some (2.3642988175181), some (7.20782717501999), some (5.28280011958818), some (-1.86), some (7.57219687830337), some (0.461259859691884), some (3.68761758689115), some (-0.00765620096008604), some (-0.814837409210906), some (0.0278228412554146), some (-0.2), some (0.114083971479413), some (0.00555838475233717), some (0.0169405697645951), some (0.0629883018832411), some (-0.015748776750613), 0.357968372042154, 0.313059857861549, 0.394801697910583, 0.352226435171568, 0.46009490981253, 0.389454371845339, 0.201558868007294, -0.202920187753708, -0.00804938085216038⟩,
  ⟨2.630268, some (-3.32901188627368), some (1.27), some (2.356090778988), some (7.37338160107003), some (5.27637368113241), some (-1.86), some (7.57111635254944), some (0.461724085571353), some (3.68191081013147), some (-0.00776457876166482), some (-0.80425472269724), some (0.0283965007998987), some (-0.2), some (0.114084816797351), some (0.00365857063328509), some (0.013639857720412), some (0.0596797687941419), some (-0.0145564342401054), 0.356505767109634, 0.312738048255303, 0.394387161574156, 0.351092618634839, 0.4614329754994, 0.388856618390957, 0.200793693861507, -0.210459336500364, -0.00784024201843022⟩,
  ⟨2.691535, some (-3.32651097890994), some (1.27), some (2.34794326256018), some (7.5450360499834), some (5.27017567525274), some (-1.86), some (7.57003581970025), some (0.462188314499151), some (3.67620399589837), some (-0.00787393021521388), some (-0.793552264852191), some (0.0289611824879636), some (-0.2), some (0.114140840989125), some (0.00181806343316589), some (0.0103574373121546), some (0.0563065196308337), some (-0.0132664137899696), 0.355213358097593, 0.31253857954637, 0.393992355557793, 0.350058579871064, 0.46277818824156, 0.388266829724563, 0.200348283967621, -0.218249142573472, -0.00763557510232869⟩,
  ⟨2.7542283, some (-3.32402811017214), some (1.27), some (2.33982330523275), some (7.72279141277467), some (5.26421015152458), some (-1.86), some (7.56895530041564), some (0.462652537599207), some (3.6704972533063), some (-0.00798422813687821), some (-0.782735325026146), some (0.0295165558422504), some (-0.2), some (0.114241099090833), some (0.0000364), some (0.00709376662125674), some (0.0528694704045582), some (-0.0119009622548205), 0.354090866311372, 0.312467388270035, 0.393620930751709, 0.349121373953667, 0.464127844893118, 0.387684367527347, 0.200122513948675, -0.226273034896585, -0.00743576118804754⟩,
  ⟨2.818383, some (-3.32160206721573), some (1.27), some (2.3317030430501), some (7.90661732238492), some (5.25847827152361), some (-1.86), some (7.56787476282381), some (0.463116768564586), some (3.664790414025), some (-0.00809544342628393), some (-0.771809599472843), some (0.0300623690825755), some (-0.2), some (0.11437381289322), some (-0.00168814425770514), some (0.00384900929811555), some (0.0493706156049344), some (-0.0104937643548246), 0.353137623412887, 0.31253049770505, 0.393281971166136, 0.348278044927566, 0.465479084574553, 0.387108572595829, 0.200029825928162, -0.23450849677575, -0.00724123746018108⟩,
  ⟨2.884031, some (-3.3192819513915), some (1.27), some (2.32355662012639), some (8.09642697264419), some (5.25297819080036), some (-1.86), some (7.56679424257952), some (0.463580992076947), some (3.65908366636443), some (-0.00820754500418892), some (-0.760782226564136), some (0.030598446596266), some (-0.2), some (0.114527230607561), some (-0.00335808760500213), some (0.000623133765546023), some (0.0458131352089658), some (-0.00907289421945601), 0.352352600490823, 0.312733978993868, 0.392990546791692, 0.347526037016939, 0.466828912884612, 0.386538780043392, 0.200003375054025, -0.242930016307596, -0.00705243020255949⟩,
  ⟨2.951209, some (-3.3171191218619), some (1.27), some (2.31535452165241), some (8.29203219793006), some (5.24770571151703), some (-1.86), some (7.56571370842196), some (0.464045221566861), some (3.65337684522117), some (-0.00832049981191367), some (-0.749662749301971), some (0.0311246845084395), some (-0.2), some (0.114689938972277), some (-0.00497686857756513), some (-0.00258397314092473), some (0.0422009513641236), some (-0.00766086541533317), 0.351734434448376, 0.313083903987558, 0.392762429017375, 0.346863617521699, 0.468174228625255, 0.385974337245533, 0.2, -0.251511437358201, -0.00686970956228305⟩,
  ⟨3.019952, some (-3.31515610127673), some (1.27), some (2.30706007323993), some (8.49311256438399), some (5.24265500594419), some (-1.86), some (7.56463317089786), some (0.464509452503141), some (3.6476700062976), some (-0.00843427288755867), some (-0.738462912934837), some (0.0316410447540812), some (-0.2), some (0.114851407890784), some (-0.00654873641813354), some (-0.00577231407121076), some (0.0385385307629974), some (-0.00627987805759789), 0.351281451114045, 0.31358640377003, 0.392612322030753, 0.346290279024377, 0.469511852162105, 0.385414623987592, 0.2, -0.260227276988216, -0.00669338822840334⟩,
  ⟨3.090296, some (-3.31341671252482), some (1.27), some (2.29864244095192), some (8.69932152387642), some (5.23781827159403), some (-1.86), some (7.56355263704986), some (0.464973681860061), some (3.64196318678925), some (-0.00854882752819959), some (-0.727195483780938), some (0.0321475481874924), some (-0.2), some (0.115003021486277), some (-0.00807845434639781), some (-0.00894140798277174), some (0.0348306439861129), some (-0.00495365978042184), 0.350991684661321, 0.314247823480568, 0.392553652152488, 0.345807078059033, 0.47083855482931, 0.384859074107369, 0.2, -0.269053506888152, -0.00652372977066963⟩,
  ⟨3.162278, some (-3.31190437221493), some (1.27), some (2.2900929507098), some (8.91044376363467), some (5.23318532716004), some (-1.86), some (7.56247211104906), some (0.46543790784559), some (3.63625640872576), some (-0.00866412553903669), some (-0.715873759142178), some (0.0326442673775431), some (-0.2), some (0.115137089601458), some (-0.00957096042863944), some (-0.0120900767988165), some (0.031082339023166), some (-0.00369611446963924), 0.350862893435941, 0.315074084769492, 0.392598411371545, 0.345416854938847, 0.472151089094675, 0.384307197621721, 0.2, -0.277968571230485, -0.00636093458485681⟩,
  ⟨3.235937, some (-3.3106148430504), some (1.27), some (2.2814161076179), some (9.12635269518465), some (5.22874411164133), some (-1.86), some (7.56139158027079), some (0.465902135883661), some (3.63054960543017), some (-0.00878012756048496), some (-0.704509654393571), some (0.0331313197618908), some (-0.2), some (0.115247424062827), some (-0.011031213974094), some (-0.0152163498209031), some (0.0272987762769305), some (-0.00252155787302577), 0.350892572956238, 0.316070545518718, 0.392757055292644, 0.34512426462657, 0.473446219351432, 0.383758602025521, 0.2, -0.286955547610538, -0.00620511743923772⟩,
  ⟨3.311311, some (-3.30954013366582), some (1.27), some (2.27262068013297), some (9.34695324395151), some (5.22448142019352), some (-1.86), some (7.56031105998594), some (0.466366359413446), some (3.62484285755539), some (-0.00889679345424574), some (-0.693113775601286), some (0.0336088617278451), some (-0.2), some (0.115329840171157), some (-0.0124638235787828), some (-0.0183175054367555), some (0.0234850705562734), some (-0.00146391222478437), 0.351077967481944, 0.317241670599287, 0.393038450826573, 0.344935530766125, 0.474720753142951, 0.383213011410484, 0.2, -0.296005463568138, -0.00605628945592832⟩,
  ⟨3.3884413, some (-3.3086757509079), some (1.27), some (2.26372431215886), some (9.57223649912446), some (5.22038392377443), some (-1.86), some (7.55834518302076), some (0.466868736392112), some (3.61882912471789), some (-0.00901408272157703), some (-0.681695869625126), some (0.0340770839725698), some (-0.2), some (0.115382290222012), some (-0.013872943668856), some (-0.0213899512179765), some (0.0196461340221178), some (-0.000560678946342375), 0.351416081749516, 0.318590354532175, 0.393449865963423, 0.34485781391574, 0.47597157241463, 0.382670282265121, 0.2, -0.305119883616513, -0.00591435020343727⟩,
  ⟨3.4673681, some (-3.30802821837892), some (1.27), some (2.25476744192587), some (9.80243198385238), some (5.2164395692045), some (-1.86), some (7.55602140443244), some (0.467386534881901), some (3.61269131822918), some (-0.00913195492275588), some (-0.670262934427017), some (0.0345362082335955), some (-0.2), some (0.115403685543637), some (-0.0152623656133703), some (-0.0244293567552205), some (0.0157868140765905), some (0.000160017102345922), 0.351903694086969, 0.320117818362707, 0.393996993298045, 0.344898060535342, 0.477195664233908, 0.382130415035727, 0.2, -0.314311768356234, -0.00577908771239088⟩,
  ⟨3.548134, some (-3.30761478933239), some (1.27), some (2.24579899041122), some (10.0378941983334), some (5.21263943085665), some (-1.86), some (7.55369760701896), some (0.467904337566427), some (3.60655346201747), some (-0.009250370066723), some (-0.658818863441884), some (0.0349864852405533), some (-0.2), some (0.115392639854131), some (-0.0166350029169917), some (-0.0274311678088513), some (0.0119120409641584), some (0.000679464616969217), 0.352537371622138, 0.321824432335907, 0.394684000247103, 0.345061171433541, 0.478390150597999, 0.381593560664687, 0.2, -0.323602902145615, -0.00565018779859389⟩,
  ⟨3.63078, some (-3.30745792778544), some (1.27), some (2.23685726716618), some (10.2789082994045), some (5.20897737051885), some (-1.86), some (7.55137384272798), some (0.468422132870396), some (3.60041569329238), some (-0.00936928894373683), some (-0.647365630529996), some (0.0354281935678661), some (-0.2), some (0.115347454907089), some (-0.0179922546071574), some (-0.0303914172387683), some (0.00802661667278565), some (0.00098958730427734), 0.353313488024087, 0.3237100786592, 0.395513601412524, 0.345348477917028, 0.479552317176564, 0.381060021523843, 0.2, -0.333020847134577, -0.00552724749620599⟩,
  ⟨3.715352, some (-3.30759139261871), some (1.27), some (2.22795577772878), some (10.5255065884991), some (5.20544853534925), some (-1.86), some (7.54905005283075), some (0.468939933880104), some (3.5942778569334), some (-0.00948867338009871), some (-0.63590408663418), some (0.0358616389800059), some (-0.2), some (0.115266641784371), some (-0.0193342342424606), some (-0.0333071181076749), some (0.00413505309642576), some (0.00110315732522803), 0.354228244247661, 0.325773607995848, 0.39648715101325, 0.34576015231911, 0.480679640893443, 0.380530246531093, 0.2, -0.342596459872154, -0.00540979223226892⟩,
  ⟨3.8018932, some (-3.30806150821474), some (1.27), some (2.21909469530202), some (10.7775409727779), some (5.20204807284075), some (-1.86), some (7.54672628260909), some (0.469457730505584), some (3.58814007254357), some (-0.00960848640080235), some (-0.62443434462548), some (0.0362871538474612), some (-0.2), some (0.115148773673813), some (-0.0206602462862809), some (-0.0361762405114143), some (0.000241439803818151), some (0.00105528106992914), 0.355277692738061, 0.328012654447126, 0.397604754812362, 0.346296087826952, 0.481769816216666, 0.38000482075134, 0.2, -0.352361675391815, -0.00529729851266758⟩,
  ⟨3.890451, some (-3.30891105008688), some (1.27), some (2.21026339138575), some (11.0346724718558), some (5.1987709958134), some (-1.86), some (7.54440249144459), some (0.469975531797672), some (3.58200223283735), some (-0.00972869229205346), some (-0.612955569883525), some (0.0367050962484982), some (-0.2), some (0.114993073210202), some (-0.0219693362890299), some (-0.0389974826848123), some (-0.00365045681544707), some (0.000890165488501626), 0.356457765417834, 0.330423879646121, 0.398865400886908, 0.346955938191951, 0.48282078015551, 0.37948445024157, 0.2, -0.362347586304573, -0.0051892190917924⟩
]

/-- src/pygmm/data/bayless_abrahamson_2019.csv, part 5 of 8 -/
def table4 : List Row := [
  ⟨3.981071, some (-3.31016811661773), some (1.27), some (2.20144419708277), some (11.2963825436495), some (5.19561035601182), some (-1.86), some (7.54207871508108), some (0.470493329791715), some (3.57586443222503), some (-0.00984925656058898), some (-0.60146558772025), some (0.0371158484237831), some (-0.2), some (0.11480032835617), some (-0.023260626710009), some (-0.0417700744814282), some (-0.0075368694576008), some (0.000662737999619356), 0.357764305778321, 0.333002961692411, 0.400267107590156, 0.347739161279333, 0.483830736099456, 0.378969943236187, 0.2, -0.372583164155553, -0.00508499967251046⟩,
  ⟨4.073803, some (-3.31184058682357), some (1.27), some (2.192625695975), some (11.5621170863698), some (5.19255814006572), some (-1.86), some (7.53796221867378), some (0.471001466858074), some (3.5696840792889), some (-0.0099701457906973), some (-0.58996074404082), some (0.0375198142958686), some (-0.2), some (0.11457346844004), some (-0.0245336960016737), some (-0.0444937864553224), some (-0.0114140138923121), some (0.000431437476479779), 0.359193105392867, 0.335744242317926, 0.401807086349681, 0.348645063421155, 0.484798176807247, 0.378462189092163, 0.2, -0.383094450994685, -0.00498408503254161⟩,
  ⟨4.168694, some (-3.31392747808984), some (1.27), some (2.18380578661026), some (11.8313373577596), some (5.18960558321988), some (-1.86), some (7.53338065171071), some (0.471507090239134), some (3.56349277258204), some (-0.010091327403172), some (-0.578436776188351), some (0.0379174158244362), some (-0.2), some (0.114317492835002), some (-0.0257889558914765), some (-0.0471688431818191), some (-0.0152781579864998), some (0.00023945041300566), 0.360739944707695, 0.338640547841668, 0.403481916621311, 0.349672846437857, 0.485721907047629, 0.377962136717468, 0.2, -0.39390353534887, -0.00488593294776172⟩,
  ⟨4.2657952, some (-3.31643135728804), some (1.27), some (2.17498966513346), some (12.1035185058029), some (5.18674245986194), some (-1.86), some (7.52879908912708), some (0.472012713136877), some (3.55730147179335), some (-0.0102127693236378), some (-0.566889173621552), some (0.0383090880849396), some (-0.2), some (0.114038876112501), some (-0.027027422373722), some (-0.049795716284542), some (-0.01912548284066), some (0.000108065283517256), 0.362400637012185, 0.341683009150622, 0.405287729989713, 0.350821680536427, 0.486601066357723, 0.377470774369434, 0.2, -0.405027494293331, -0.0047900351199529⟩,
  ⟨4.365158, some (-3.31935891558224), some (1.27), some (2.16619084747281), some (12.3781896636482), some (5.18395735737125), some (-1.86), some (7.52421753446757), some (0.47251833516011), some (3.55111018171294), some (-0.0103344395711599), some (-0.555313205450506), some (0.0386952731466342), some (-0.2), some (0.113744465219032), some (-0.0282506280817857), some (-0.0523748520491852), some (-0.022951779923642), some (0.0000372), 0.364171073771912, 0.34486221340871, 0.407220400434026, 0.35209078627685, 0.487435152185455, 0.376989112546557, 0.2, -0.416477503795558, -0.00469593691866485⟩,
  ⟨4.4668354, some (-3.32272405261554), some (1.27), some (2.15741800133166), some (12.6547745336877), some (5.18123829505969), some (-1.86), some (7.51963597308793), some (0.473023957924981), some (3.54491888255126), some (-0.0104563057818829), some (-0.543704031633067), some (0.0390764130491647), some (-0.2), some (0.113439551779151), some (-0.0294601935633744), some (-0.0549069056628599), some (-0.0267526429863388), some (0.00000865), 0.366047269285945, 0.348169114649021, 0.409275738004538, 0.353479504384218, 0.488224043601429, 0.376518171199572, 0.2, -0.428258550839497, -0.0046032441243251⟩,
  ⟨4.5708813, some (-3.32654151608979), some (1.27), some (2.14866716674599), some (12.9324714318891), some (5.17857295757195), some (-1.86), some (7.51505440589387), some (0.473529581331532), some (3.53872757553226), some (-0.0105783346861986), some (-0.53205615986573), some (0.0394529423797542), some (-0.2), some (0.11312652397716), some (-0.0306575456034122), some (-0.0573928891389147), some (-0.0305237314878453), some (0.000000959), 0.368025402673189, 0.351594847579581, 0.411449682215994, 0.354987341145331, 0.488968025556302, 0.376058972015729, 0.2, -0.440369574479055, -0.00451161987931059⟩,
  ⟨4.677351, some (-3.3308348304258), some (1.27), some (2.13993519685016), some (13.2104262350815), some (5.17594776344486), some (-1.86), some (7.51047282759216), some (0.474035205963928), some (3.53253625350292), some (-0.0107004915605821), some (-0.520363728624057), some (0.0398252810875029), some (-0.2), some (0.11280511229549), some (-0.0318437612907095), some (-0.0598339757801668), some (-0.0342612859119361), some (0), 0.370101854997063, 0.35513026954156, 0.413738490403567, 0.356613984911645, 0.489667813014039, 0.37561253619936, 0.2, -0.452803898346332, -0.00442077435400549⟩,
  ⟨4.7863001, some (-3.33563526217685), some (1.27), some (2.13123618805233), some (13.4879827132077), some (5.17334783388071), some (-1.86), some (7.50589127433715), some (0.474540827832162), some (3.52634496532047), some (-0.0108227396761541), some (-0.508620140554), some (0.0401938281950167), some (-0.2), some (0.112472762920065), some (-0.0330194725295565), some (-0.0622314599137957), some (-0.0379622867240172), some (0), 0.372273239039265, 0.358765988201165, 0.416138916185391, 0.358359294548818, 0.490324573628899, 0.375179887875773, 0.2, -0.465550092898447, -0.00433045059153797⟩,
  ⟨4.897787, some (-3.34098028027856), some (1.27), some (2.12259998987871), some (13.7646883064915), some (5.17075808958378), some (-1.86), some (7.5013097186938), some (0.475046449963972), some (3.52015367391054), some (-0.0109450397655575), some (-0.496817616591713), some (0.0405589569508342), some (-0.2), some (0.112125607648773), some (-0.034184579428429), some (-0.0645868145417273), some (-0.0416243830448688), some (0), 0.37453641929717, 0.362492612651845, 0.418648373126872, 0.360223263835462, 0.490939947441857, 0.374762062960042, 0.2, -0.478593200690903, -0.00424041951203545⟩,
  ⟨5.011872, some (-3.34690044248409), some (1.27), some (2.11406938673267), some (14.0402772783557), some (5.16816457944455), some (-1.86), some (7.49631422475935), some (0.475546696553049), some (3.51393165558448), some (-0.0110673495286781), some (-0.484947178274669), some (0.0409210117164322), some (-0.2), some (0.111759269098428), some (-0.035338334032068), some (-0.0669018450732879), some (-0.0452452682915134), some (0), 0.376888520150048, 0.366300771743818, 0.421265078797039, 0.362205967375636, 0.491516062258695, 0.374360122819967, 0.2, -0.491916040743114, -0.00415047862777596⟩,
  ⟨5.128613, some (-3.35342543657907), some (1.27), some (2.10570193147933), some (14.3147337917955), some (5.16555325212544), some (-1.86), some (7.48771422174677), some (0.476000073977106), some (3.50744269120267), some (-0.0111896231963097), some (-0.47299823941482), some (0.0412803065530849), some (-0.2), some (0.111369510148808), some (-0.0364796510416815), some (-0.0691787323685709), some (-0.0488226263082862), some (0), 0.379326918472484, 0.370181239338124, 0.423988224767063, 0.364307494093818, 0.492055549013194, 0.373975171543786, 0.2, -0.505500490107168, -0.00406044951479006⟩,
  ⟨5.248074, some (-3.36057526909936), some (1.27), some (2.0975601623707), some (14.58816711219), some (5.1629098978756), some (-1.86), some (7.47911416433786), some (0.476453454268845), some (3.50095368577716), some (-0.0113118111685564), some (-0.460959932428522), some (0.0416371251509589), some (-0.2), some (0.110953881321753), some (-0.0376074540233712), some (-0.0714198188872079), some (-0.0523545359798759), some (0), 0.381849212858543, 0.374125334470028, 0.426818273080168, 0.366527874177507, 0.492561566909499, 0.37360837597014, 0.2, -0.51932825281924, -0.0039701770731954⟩,
  ⟨5.3703184, some (-3.36837562959149), some (1.27), some (2.08969888925073), some (14.860615497453), some (5.16022081202662), some (-1.86), some (7.47051405199551), some (0.476906837456579), some (3.49446463890271), some (-0.0114338597408164), some (-0.448822314685949), some (0.0419917215084255), some (-0.2), some (0.110511832540285), some (-0.0387207875436233), some (-0.0736273438475771), some (-0.0558397429537673), some (0), 0.384453172980109, 0.378125225813266, 0.42975713641078, 0.36886700467176, 0.493037809544616, 0.373260988251794, 0.2, -0.533379921459724, -0.00387954059365934⟩,
  ⟨5.495409, some (-3.3768633386731), some (1.27), some (2.08215320871504), some (15.1318326541597), some (5.15747273413308), some (-1.86), some (7.46191402545134), some (0.477360216121182), some (3.48797565676559), some (-0.0115557109242281), some (-0.43657746363441), some (0.0423443206745604), some (-0.2), some (0.110043290596031), some (-0.0398192686553784), some (-0.0758033176941652), some (-0.0592773952064086), some (0), 0.387136677576825, 0.382173463548838, 0.432808170564891, 0.371324577940372, 0.493488485576135, 0.372934369567693, 0.2, -0.54763345499562, -0.00378846534907259⟩,
  ⟨5.623413, some (-3.38606480147318), some (1.27), some (2.07493965939757), some (15.4012917342605), some (5.15465302572064), some (-1.86), some (7.4533140208297), some (0.477813593630065), some (3.48148669116969), some (-0.0116773023597458), some (-0.424219563520477), some (0.0426951189230343), some (-0.2), some (0.109547591001129), some (-0.0409036185587809), some (-0.0779496438438407), some (-0.0626667089326508), some (0), 0.389897649813103, 0.386263238886577, 0.435976007509315, 0.373900016167373, 0.493918278004103, 0.372630012523329, 0.2, -0.562062787045987, -0.0036969220032491⟩,
  ⟨5.7543992, some (-3.39599090904505), some (1.27), some (2.06805865281403), some (15.6682157977268), some (5.15174979153927), some (-1.86), some (7.44471397623151), some (0.478266973246444), some (3.47499769541027), some (-0.0117985673164217), some (-0.411744493099356), some (0.0430442829062466), some (-0.2), some (0.109022301652067), some (-0.0419757356625087), some (-0.080068253410302), some (-0.0660068167000807), some (0), 0.392733996764758, 0.390388830558026, 0.43926628043522, 0.37659241412061, 0.494332287768857, 0.372349559820392, 0.2, -0.576636520241944, -0.0036049208011221⟩,
  ⟨5.8884363, some (-3.40665346460496), some (1.27), some (2.06149314931834), some (15.9315348104845), some (5.14875247886995), some (-1.86), some (7.43588558139214), some (0.478717342460706), some (3.46847957739267), some (-0.011919434756334), some (-0.399149772655579), some (0.0433919475911614), some (-0.2), some (0.108463805236309), some (-0.0430380556401431), some (-0.0821609523225151), some (-0.0692969112824605), some (0), 0.395643557239577, 0.394545197554159, 0.442685293665733, 0.379400491575434, 0.494735967383496, 0.37209481743645, 0.2, -0.591317423520608, -0.00351250683076076⟩,
  ⟨6.025596, some (-3.41806250024325), some (1.27), some (2.05520864785324), some (16.189859582502), some (5.14565247971619), some (-1.86), some (7.4221984192463), some (0.479103673650306), some (3.46134164874673), some (-0.012039829442362), some (-0.386434708818192), some (0.0437382130394318), some (-0.2), some (0.107868798363621), some (-0.0440931801232139), some (-0.0842290985333537), some (-0.0725363924259303), some (0), 0.398624060019153, 0.398727370954526, 0.446239680335806, 0.382322556063095, 0.495135049481137, 0.3718677612688, 0.2, -0.606063102985198, -0.00341975468569591⟩,
  ⟨6.1659493, some (-3.43023633373831), some (1.27), some (2.04916324698942), some (16.4416632743128), some (5.14244484155313), some (-1.86), some (7.40851137944918), some (0.479490001386515), some (3.45420378390629), some (-0.0121596720616454), some (-0.373600985693354), some (0.0440831403089742), some (-0.2), some (0.107233910523578), some (-0.0451440981734113), some (-0.086273804701664), some (-0.0757248126510228), some (0), 0.401673093341553, 0.402929571622711, 0.449936078829696, 0.385356476181105, 0.495535474057105, 0.3716705368363, 0.2, -0.620827332022647, -0.00332676198518208⟩,
  ⟨6.309573, some (-3.44320280936078), some (1.27), some (2.04331109596273), some (16.685346606371), some (5.13912831904257), some (-1.86), some (7.39482422926403), some (0.479876332238515), some (3.44706586149791), some (-0.0122788793373404), some (-0.36065243850522), some (0.0444267468893878), some (-0.2), some (0.106554785394491), some (-0.0461946934802765), some (-0.088296136614766), some (-0.0788616385537259), some (0), 0.404788085723396, 0.407145095461708, 0.453780849063367, 0.38849966551772, 0.495943317239108, 0.371505452203263, 0.2, -0.635562082381167, -0.00323364211205276⟩,
  ⟨6.456542, some (-3.45699640225427), some (1.27), some (2.03761123166336), some (16.919430132407), some (5.1357044022193), some (-1.86), some (7.38113709127784), some (0.48026266274619), some (3.43992794545135), some (-0.0123973641038308), some (-0.34759430822664), some (0.0447690021467981), some (-0.2), some (0.105825661773386), some (-0.0472495806369438), some (-0.090296976301492), some (-0.0819460845421171), some (0), 0.407966297553129, 0.411367037652476, 0.457779842271533, 0.391749076852295, 0.496364723628562, 0.37137496467305, 0.2, -0.650220108688422, -0.00314051892075471⟩,
  ⟨6.606934, some (-3.47166038436516), some (1.27), some (2.03203578549604), some (17.1427558204764), some (5.13217826658968), some (-1.86), some (7.36744998492696), some (0.480648992360933), some (3.43279004590277), some (-0.0125150353251346), some (-0.334432336390825), some (0.0451098232819085), some (-0.2), some (0.105040397824785), some (-0.048313946998517), some (-0.0922770232010088), some (-0.0849772123607296), some (0), 0.411204822170285, 0.415587979255253, 0.461938231928715, 0.395101206009997, 0.496805843538447, 0.371281662002278, 0.2, -0.664757154293416, -0.00304752444587413⟩,
  ⟨6.7608284, some (-3.4872243201209), some (1.27), some (2.02656074095446), some (17.3543082913567), some (5.12856002464687), some (-1.86), some (7.34771902811086), some (0.480982276304539), some (3.42438714689816), some (-0.0126317980422474), some (-0.321172306754026), some (0.0454490723230851), some (-0.2), some (0.104192956561244), some (-0.0493930095149986), some (-0.0942369014382347), some (-0.0879539908204754), some (0), 0.414500594646536, 0.419800472395692, 0.466260407833155, 0.398552104577768, 0.497272775926723, 0.371228239032844, 0.2, -0.679132562444214, -0.00295479884729334⟩,
  ⟨6.9183082, some (-3.50369721699012), some (1.27), some (2.02116545926575), some (17.5532133208403), some (5.12486407789431), some (-1.86), some (7.32410951499836), some (0.481281522755703), some (3.41517241997095), some (-0.012747553242443), some (-0.307819649035969), some (0.0457865546723169), some (-0.2), some (0.103276915792002), some (-0.0504914167751498), some (-0.0961771579259837), some (-0.0908749450949657), some (0), 0.417850406393826, 0.423997866563362, 0.470749929348678, 0.402097400486617, 0.497771517485068, 0.371217470810645, 0.2, -0.693309381079409, -0.00286249036194063⟩,
  ⟨7.0794563, some (-3.52106034097797), some (1.27), some (2.01584033558924), some (17.7389258989473), some (5.12110677805385), some (-1.86), some (7.30049998347503), some (0.48158076944022), some (3.40595768585804), some (-0.0128621976524097), some (-0.294378705806231), some (0.046122019659212), some (-0.2), some (0.102286112991882), some (-0.0516129673195398), some (-0.0980978807583117), some (-0.0937378934868677), some (0), 0.421250923911063, 0.428174300025463, 0.475409528274745, 0.405732325292244, 0.49830791799255, 0.371252183480582, 0.2, -0.707254650700773, -0.00277075461334571⟩,
  ⟨7.24436, some (-3.5392743970857), some (1.27), some (2.01058619301285), some (17.9112341431023), some (5.11730455490938), some (-1.86), some (7.27689017191413), some (0.481880019674165), some (3.39674284244725), some (-0.0129756234676235), some (-0.280853412898955), some (0.0464551634069235), some (-0.2), some (0.101213772630107), some (-0.0527603874456517), some (-0.0999987595377039), some (-0.096540148674814), some (0), 0.424698710231422, 0.432324272761029, 0.480241149043664, 0.409451746973324, 0.498887641718558, 0.371335224419736, 0.2, -0.720939637524777, -0.00267975216059135⟩,
  ⟨7.413103, some (-3.55830203401517), some (1.27), some (2.00539975367758), some (18.0699157497251), some (5.11347328079163), some (-1.86), some (7.25328061578224), some (0.482179266670592), some (3.38752809872969), some (-0.0130877180420341), some (-0.267247846174652), some (0.0467856340355092), some (-0.2), some (0.100051605370801), some (-0.0539352829577267), some (-0.101879239844217), some (-0.0992789201983352), some (0), 0.428190247971521, 0.436442928827801, 0.485246014091918, 0.413250207056489, 0.499516134569895, 0.371469433105739, 0.2, -0.734340105691096, -0.00258964244597678⟩,
  ⟨7.585776, some (-3.57810727391497), some (1.27), some (2.00027120898537), some (18.214661456064), some (5.10962854087225), some (-1.86), some (7.22967113176926), some (0.482478512752925), some (3.37831338315994), some (-0.0131983635738335), some (-0.2535654695095), some (0.0471130387404246), some (-0.2), some (0.0987904725676511), some (-0.0551378994516703), some (-0.103738755142704), some (-0.101951781141634), some (0), 0.431721963193678, 0.440525836691881, 0.490424703571987, 0.417121960777989, 0.500198596865783, 0.371657614123475, 0.2, -0.74743681850805, -0.00250057593342268⟩,
  ⟨7.762471, some (-3.59866184931361), some (1.27), some (1.99519211647981), some (18.3452568936272), some (5.10578554200753), some (-1.86), some (7.20606165603588), some (0.482777758730315), some (3.3690986708217), some (-0.0133074368331519), some (-0.239809291973629), some (0.0474369517964226), some (-0.2), some (0.0974207129965825), some (-0.0563675531487076), some (-0.105577165950462), some (-0.104556520558143), some (0), 0.435290249407618, 0.444568690775934, 0.495777239673208, 0.421061019044815, 0.500939961845591, 0.371902513587443, 0.2, -0.760216148920853, -0.00241268711857278⟩,
  ⟨7.9432821, some (-3.61994961000705), some (1.27), some (1.99016595346931), some (18.4618514776369), some (5.1019581797695), some (-1.86), some (7.18245213453531), some (0.483077005287796), some (3.35988394062064), some (-0.0134148089839721), some (-0.225982411513995), some (0.0477569225425763), some (-0.2), some (0.0959343128802816), some (-0.0576228029112292), some (-0.107394724487977), some (-0.107091293714997), some (0), 0.438891490926186, 0.448567408844485, 0.50130316661577, 0.425061191104479, 0.501744880015717, 0.372206800137747, 0.2, -0.772670194921646, -0.00232608903581664⟩,
  ⟨8.1283044, some (-3.64194461677395), some (1.27), some (1.98519454529983), some (18.564621581468), some (5.09816017987109), some (-1.86), some (7.15884266724715), some (0.483376251158144), some (3.35066923157854), some (-0.0135203455537926), some (-0.212086540564387), some (0.0480724827135522), some (-0.2), some (0.094326065196373), some (-0.0589016521386733), some (-0.109191790250396), some (-0.10955488727062), some (0), 0.442522084665172, 0.452518143200552, 0.507001618240057, 0.429116126957977, 0.502617709160336, 0.372573051391345, 0.2, -0.784796359187098, -0.00224086826651947⟩,
  ⟨8.3176364, some (-3.66460712149589), some (1.27), some (1.9802713096954), some (18.653584866165), some (5.09440771183758), some (-1.86), some (7.13523320133449), some (0.483675497011058), some (3.34145452307329), some (-0.0136239065983901), some (-0.198121723402997), some (0.0483831527627303), some (-0.2), some (0.0925932722785963), some (-0.0602014786646566), some (-0.110968638090041), some (-0.111946581867481), some (0), 0.446178459563095, 0.456417169785928, 0.51287136630761, 0.433219358671744, 0.50356250947165, 0.373003746267669, 0.2, -0.796596399613904, -0.00215708269417487⟩,
  ⟨8.5113792, some (-3.68789010495326), some (1.27), some (1.97537987294855), some (18.7285457639299), some (5.09071893840819), some (-1.86), some (7.09818988012656), some (0.483897117581852), some (3.32880337417763), some (-0.0137253470891357), some (-0.184086217199181), some (0.0486884470524397), some (-0.2), some (0.0907349027924643), some (-0.0615189725191627), some (-0.112725343507486), some (-0.114265978916729), some (0), 0.449857093174372, 0.460261020577231, 0.518910844442787, 0.437364339888466, 0.504583043008576, 0.373501262986688, 0.2, -0.808075298828801, -0.00207476294941486⟩,
  ⟨8.709635, some (-3.71174077205229), some (1.27), some (1.97050360566177), some (18.7893336352304), some (5.08711371954279), some (-1.86), some (7.05994844251746), some (0.484111815217042), some (3.31584574043029), some (-0.0138245175210172), some (-0.169976939546727), some (0.0489878781264466), some (-0.2), some (0.0887507913129657), some (-0.0628507728647047), some (-0.114461883799146), some (-0.116513179236968), some (0), 0.453554525358742, 0.464046860870659, 0.52511814537888, 0.441544482977743, 0.505682776487123, 0.374067882042223, 0.2, -0.8192401596192, -0.00199391556167292⟩,
  ⟨8.912507, some (-3.7361050682681), some (1.27), some (1.96562937062614), some (18.8359011691396), some (5.08361303320931), some (-1.86), some (7.02170733623731), some (0.484326510992063), some (3.30288821894963), some (-0.0139212647312075), some (-0.155790275323262), some (0.0492809605852605), some (-0.2), some (0.0866421983788127), some (-0.064193781458617), some (-0.116178321833016), some (-0.118688919938058), some (0), 0.457267369121121, 0.467772302848474, 0.531490991926586, 0.445753193248741, 0.506864886303869, 0.374705793214817, 0.2, -0.830099580029053, -0.00191452698175423⟩,
  ⟨9.120107, some (-3.76092681434322), some (1.27), some (1.96074611706436), some (18.8682865661743), some (5.0802381271715), some (-1.86), some (6.9834657677612), some (0.484541209361975), some (3.28993054085964), some (-0.014015432932197), some (-0.141523306438778), some (0.0495672150467647), some (-0.2), some (0.0844120854833181), some (-0.0655449582686721), some (-0.117874821202392), some (-0.120794254326617), some (0), 0.460992318562755, 0.471435440322542, 0.538026684537692, 0.449983899598804, 0.508132264760535, 0.375417105651036, 0.2, -0.840662742295028, -0.00183657134321823⟩,
  ⟨9.332541, some (-3.78613926182626), some (1.27), some (1.95584236682865), some (18.886540488087), some (5.07700856637839), some (-1.86), some (6.94522449282671), some (0.484755906083866), some (3.27697296223256), some (-0.0141068649810545), some (-0.127174507340433), some (0.0498461723222369), some (-0.2), some (0.0820653458962507), some (-0.0669012882205226), some (-0.119551372098824), some (-0.122830543055486), some (0), 0.46472615367158, 0.47503419506741, 0.544722030896671, 0.454230081126353, 0.509487526584868, 0.376203860068449, 0.2, -0.850937847628464, -0.00176002290222832⟩,
  ⟨9.549923, some (-3.81168383698931), some (1.27), some (1.95091158675457), some (18.8908654144684), some (5.07394174674778), some (-1.86), some (6.906983254407), some (0.484970602600753), some (3.26401539597807), some (-0.014195403910764), some (-0.112744075637009), some (0.0501173777816308), some (-0.2), some (0.0796085848037262), some (-0.0682601096543878), some (-0.121207938527522), some (-0.124799279195719), some (0), 0.468465741489842, 0.478565980635353, 0.551573264458127, 0.458485289626201, 0.510933015010026, 0.377068042196806, 0.2, -0.860930944953288, -0.0016848642335921⟩,
  ⟨9.7723722, some (-3.83753813813307), some (1.27), some (1.94596080519985), some (18.8818484459286), some (5.07105295363375), some (-1.86), some (6.86874138012175), some (0.48518530268756), some (3.25105761426847), some (-0.0142808947351072), some (-0.098233991651502), some (0.0503803959131144), some (-0.2), some (0.0770505011815617), some (-0.0696189025593074), some (-0.122844746719085), some (-0.126701700846533), some (0), 0.472208033371136, 0.482026994722516, 0.558575958574897, 0.462743168479077, 0.512470806784883, 0.37801159650346, 0.2, -0.870645052536319, -0.00161109149558837⟩
]

/-- src/pygmm/data/bayless_abrahamson_2019.csv, part 6 of 8 -/
def table5 : List Row := [
  ⟨10, some (-3.86372417022655), some (1.27), some (1.94100671774355), some (18.8603468899721), some (5.06951177616716), some (-1.86), some (6.8305), some (0.4854), some (3.2381), some (-0.0143631865091235), some (-0.0829021593028397), some (0.0506348151094055), some (-0.2), some (0.0739812463794732), some (-0.0710183280761318), some (-0.124373436043363), some (-0.128302697138655), some (0), 0.475950058464381, 0.485413151905186, 0.565724941294348, 0.466997535419704, 0.514102715618361, 0.379036439200681, 0.2, -0.880079287299555, -0.00153871935098132⟩,
  ⟨10.23293, some (-3.89028457020269), some (1.27), some (1.93606954890673), some (18.8273014783404), some (5.06844116512582), some (-1.86), some (6.80045326404154), some (0.485544070657233), some (3.22779894800785), some (-0.0144421345919713), some (-0.0675780413607421), some (0.050880252692769), some (-0.2), some (0.0709039346478949), some (-0.0723709508895747), some (-0.125861427367004), some (-0.129865283010107), some (0), 0.479688914615742, 0.488720672122514, 0.573014201970213, 0.471242651398395, 0.515830292501197, 0.38014446967201, 0.2, -0.88922841374613, -0.00146778277763947⟩,
  ⟨10.471284, some (-3.91727021639972), some (1.27), some (1.93117831653407), some (18.7838665876432), some (5.06767668042989), some (-1.86), some (6.77040673226876), some (0.485688140335419), some (3.21749796601755), some (-0.014517603028237), some (-0.0522790552442868), some (0.0511163601173232), some (-0.2), some (0.0678256465093307), some (-0.0736901602741032), some (-0.127323399017355), some (-0.131399064702368), some (0), 0.483421760020774, 0.491945827983016, 0.580436757424514, 0.475473370083597, 0.517654819356004, 0.38133757940679, 0.2, -0.898083034295415, -0.00139833454945457⟩,
  ⟨10.715192, some (-3.9447612084443), some (1.27), some (1.92638344168795), some (18.731757744065), some (5.06709230356964), some (-1.86), some (6.74035994981556), some (0.485832211215589), some (3.20719689808541), some (-0.0145894669473531), some (-0.037008938529052), some (0.0513428281786078), some (-0.2), some (0.0647488922896865), some (-0.0749878117025428), some (-0.128770698187334), some (-0.132912244902509), some (0), 0.487145807432381, 0.495084972732645, 0.58798452725906, 0.479685147192202, 0.51957730210155, 0.382617657278721, 0.2, -0.90663030370089, -0.00133044066158072⟩,
  ⟨10.96478, some (-3.97284884479915), some (1.27), some (1.92175070608569), some (18.6730796683723), some (5.06660642744791), some (-1.86), some (6.71031332896972), some (0.48597628132087), some (3.19689588555781), some (-0.0146576148850245), some (-0.0217642816150222), some (0.0515593919470405), some (-0.2), some (0.0616736451646084), some (-0.0762726774357794), some (-0.130210684298175), some (-0.134410653858961), some (0), 0.490858321821198, 0.498135481076715, 0.595648246045235, 0.483873962717668, 0.521598466268204, 0.38398659024189, 0.2, -0.914855087789983, -0.00126417509811608⟩,
  ⟨11.220183, some (-4.00164598727094), some (1.27), some (1.91734027375396), some (18.6097280420399), some (5.0661705563212), some (-1.86), some (6.68026654887987), some (0.486120352189708), some (3.18659481843591), some (-0.0147219509483039), some (-0.00653896410320975), some (0.0517658350503722), some (-0.2), some (0.0585989059690021), some (-0.0775507601697968), some (-0.131647693201274), some (-0.135898177651245), some (0), 0.494556622073997, 0.501096228875442, 0.603417418660676, 0.48803619553762, 0.5237187561691, 0.385446259000299, 0.2, -0.922741589721515, -0.00119961585120701⟩,
  ⟨11.481534, some (-4.03126106197465), some (1.27), some (1.91319344291801), some (18.5430009558659), some (5.06575738557569), some (-1.86), some (6.65021989504934), some (0.486264422453146), some (3.17629379460003), some (-0.0147823967671603), some (0.00867357294880735), some (0.0519619928683468), some (-0.2), some (0.055523481234308), some (-0.0788260250797079), some (-0.133084105923317), some (-0.13737740657838), some (0), 0.498238087081745, 0.503968393076236, 0.61128031634162, 0.492168479765339, 0.525938338104539, 0.386998528691305, 0.2, -0.930275507390603, -0.00113684065969579⟩,
  ⟨11.748973, some (-4.06179441548963), some (1.27), some (1.90933894569557), some (18.4737572399601), some (5.06535235632833), some (-1.86), some (6.62017320034772), some (0.486408492912558), some (3.16599275675213), some (-0.0148388931924251), some (0.0238793908509843), some (0.0521477542403336), some (-0.2), some (0.0524463022182339), some (-0.0801010637516032), some (-0.134521139379226), some (-0.138850104810304), some (0), 0.501900166213147, 0.506755710303352, 0.619224007572943, 0.496267563840908, 0.528257107694677, 0.388645235135397, 0.2, -0.937446580057216, -0.00107592233137499⟩,
  ⟨12.022642, some (-4.09329461765161), some (1.27), some (1.90580161168787), some (18.4026978495717), some (5.06494833404341), some (-1.86), some (6.59012644573039), some (0.486552563659258), some (3.15569169836308), some (-0.014891401707853), some (0.0390836846336663), some (0.0523230615403361), some (-0.2), some (0.0493665901717944), some (-0.0813775944321322), some (-0.135959336051721), some (-0.140317531089636), some (0), 0.505540393780914, 0.509463977394576, 0.627234419794928, 0.500330186386704, 0.530674701172592, 0.390388167755228, 0.2, -0.944250101738485, -0.0010169260364744⟩,
  ⟨12.302684, some (-4.12575715403937), some (1.27), some (1.90259689245834), some (18.3302691641083), some (5.06454239833417), some (-1.86), some (6.56007985827741), some (0.486696633604424), some (3.1453906972837), some (-0.0149399055212975), some (0.0542907328358729), some (0.0524879089483601), some (-0.2), some (0.0462838315396795), some (-0.0826567858957179), some (-0.137398846611203), some (-0.141780613490633), some (0), 0.509156406721439, 0.512100046977694, 0.635296430650679, 0.504352977088561, 0.533190510465661, 0.392229050665225, 0.2, -0.950685398536715, -0.000959911479712242⟩,
  ⟨12.589251, some (-4.1591023368772), some (1.27), some (1.89972538653862), some (18.2565618197047), some (5.06413393781958), some (-1.86), some (6.53003306203564), some (0.486840704550708), some (3.13508962462437), some (-0.0149844102908561), some (0.0695039726485327), some (0.0525946938720127), some (-0.2), some (0.043197725884654), some (-0.0839394323950513), some (-0.13883958977375), some (-0.143240078423732), some (0), 0.512745897847945, 0.514669900566994, 0.643393880948772, 0.508332386383414, 0.535803571647084, 0.394169391294247, 0.2, -0.956752753735048, -0.000904936992268716⟩,
  ⟨12.882492, some (-4.19320122282247), some (1.27), some (1.89718092224532), some (18.181583572509), some (5.06372382574072), some (-1.86), some (6.49998636897933), some (0.48698477500223), some (3.12478858734054), some (-0.0150249312437331), some (0.0847260946800118), some (0.0526946444268913), some (-0.2), some (0.0401081219578684), some (-0.0852260492853933), some (-0.140281339712973), some (-0.144696532578304), some (0), 0.516306356212106, 0.517178325071701, 0.651509276896769, 0.512264644574565, 0.538512034617153, 0.396209900522254, 0.2, -0.96244933377502, -0.000852064886930366⟩,
  ⟨13.182563, some (-4.2279017674807), some (1.27), some (1.89495959568129), some (18.1055362482962), some (5.0633139252515), some (-1.86), some (6.46993972073949), some (0.487128845238862), some (3.11448756542134), some (-0.0150614596444652), some (0.0999592093350988), some (0.0527911042159157), some (-0.2), some (0.0370149296232928), some (-0.0865169275894328), some (-0.14172377879014), some (-0.146150484912029), some (0), 0.519834872094517, 0.519629088945062, 0.659623644338333, 0.51614574885001, 0.541312745930068, 0.398350021367272, 0.2, -0.967765565478509, -0.000801365385678782⟩,
  ⟨13.489624, some (-4.2630589064481), some (1.27), some (1.89305861390915), some (18.0287733009631), some (5.0629067837182), some (-1.86), some (6.4551), some (0.487234489671207), some (3.10916144644082), some (-0.0150939815316041), some (0.11520496590673), some (0.0528858694672038), some (-0.2), some (0.0339180465452034), some (-0.0878121774188784), some (-0.143166535598303), some (-0.147602344091215), some (0), 0.523328055210519, 0.522024362055014, 0.667716607698769, 0.519971475197688, 0.544201044412022, 0.40058766917844, 0.2, -0.972685721580407, -0.0007529123601382⟩,
  ⟨13.80384, some (-4.29855668765474), some (1.27), some (1.89147708745926), some (17.9517959290426), some (5.06250546745298), some (-1.86), some (6.4551), some (0.487302636645727), some (3.10869009653372), some (-0.0151225181668237), some (0.130464663311663), some (0.0529796813618226), some (-0.2), some (0.0308173444990604), some (-0.0891117395267693), some (-0.14460920565329), some (-0.149052437618105), some (0), 0.526782037077572, 0.524364140560287, 0.675766636988774, 0.523737411159899, 0.547170720339975, 0.402919136313526, 0.2, -0.977190404811455, -0.000706775760191955⟩,
  ⟨14.12537, some (-4.33430888000089), some (1.27), some (1.89021791056152), some (17.8752710377637), some (5.06211342173343), some (-1.86), some (6.4551), some (0.487370782554987), some (3.10821875399468), some (-0.0151471571381605), some (0.145739315845826), some (0.0530727653839593), some (-0.2), some (0.0277126508678133), some (-0.0904153934745707), some (-0.146051358090575), some (-0.150501027350655), some (0), 0.53019253271229, 0.526646896102641, 0.683751414061019, 0.527439004686317, 0.550214096260131, 0.405339121395781, 0.2, -0.981260439597162, -0.000663013696061862⟩,
  ⟨14.454392, some (-4.37025756012262), some (1.27), some (1.8892939673776), some (17.8001713207246), some (5.06173437230753), some (-1.86), some (6.4551), some (0.487438929010521), some (3.10774740767723), some (-0.0151680641128055), some (0.161029693312038), some (0.0531651339476068), some (-0.2), some (0.0246038012260797), some (-0.0917227934931512), some (-0.147492538311963), some (-0.15194832066282), some (0), 0.533554940527139, 0.528870503162601, 0.69164827532825, 0.531071624121018, 0.553322194141651, 0.407840849497646, 0.2, -0.984881690469047, -0.000621664436102366⟩,
  ⟨14.79108, some (-4.4063722365674), some (1.27), some (1.88871317906854), some (17.7273101288178), some (5.06137226360853), some (-1.86), some (6.4551), some (0.487507075885491), some (3.10727605845869), some (-0.0151854767679758), some (0.176336335641252), some (0.0532567246117423), some (-0.2), some (0.02149063761464), some (-0.0930335281641956), some (-0.148932272886602), some (-0.153394449796152), some (0), 0.536864462777345, 0.531032204001156, 0.699434693625438, 0.534630624375265, 0.556484959419282, 0.410416255014613, 0.2, -0.988048517184626, -0.000582740968271482⟩,
  ⟨15.135614, some (-4.44263216959828), some (1.27), some (1.88846094109428), some (17.6568187467893), some (5.06103121104178), some (-1.86), some (6.4551), some (0.487575223441591), some (3.106804704529), some (-0.0151996871001316), some (0.19165957475365), some (0.0533474560675398), some (-0.2), some (0.018372971485084), some (-0.094347173044381), some (-0.15037009669873), some (-0.154839471677636), some (0), 0.540116232214304, 0.533128737581926, 0.707088767623476, 0.53811141438477, 0.559691517558205, 0.413056203782499, 0.2, -0.99076529602303, -0.000546228682229084⟩,
  ⟨15.48817, some (-4.47901230310435), some (1.27), some (1.88850184054124), some (17.5881964759379), some (5.06071535796663), some (-1.86), some (6.4551), some (0.487643370356478), some (3.10633335503436), some (-0.0152110188956025), some (0.206999573597366), some (0.0534372481092768), some (-0.2), some (0.0152506304278924), some (-0.0956632963408764), some (-0.151805570133617), some (-0.156283383610477), some (0), 0.543305433710468, 0.535156959716956, 0.714589692554831, 0.541509521183454, 0.562930443289679, 0.415750735324984, 0.2, -0.993047108357095, -0.000512084276951188⟩,
  ⟨15.848933, some (-4.51468404496301), some (1.27), some (1.88895337589719), some (17.5252440431911), some (5.06042882210703), some (-1.86), some (6.4551), some (0.487711516312136), some (3.10586201217439), some (-0.0152198056414778), some (0.22235634135866), some (0.0535260271862518), some (-0.2), some (0.0121235260479201), some (-0.0969814428644096), some (-0.153238274214048), some (-0.157726124843887), some (0), 0.546427412719108, 0.537114277671237, 0.721918190446859, 0.544820646595321, 0.566190026631587, 0.418489310009684, 0.2, -0.99491899007678, -0.00048023688611962⟩,
  ⟨16.218101, some (-4.55064373569754), some (1.27), some (1.88945009802067), some (17.4580576811061), some (5.06017575193636), some (-1.86), some (6.4551), some (0.487779662599189), some (3.10539066702227), some (-0.0152263758877404), some (0.237729765685615), some (0.0536137267860904), some (-0.2), some (0.00899163971651131), some (-0.0983011289158325), some (-0.15466780966149), some (-0.159167572473621), some (0), 0.549477765535519, 0.538998583035119, 0.729056881777028, 0.548040713564926, 0.569458523357693, 0.421261049381575, 0.2, -0.996414298589325, -0.000450590746093322⟩,
  ⟨16.59587, some (-4.58693012643616), some (1.27), some (1.89004006702556), some (17.3885224805149), some (5.05996029626854), some (-1.86), some (6.4551), some (0.487847809242485), some (3.10491931940615), some (-0.0152310576157463), some (0.253119667357162), some (0.0537002863650833), some (-0.2), some (0.00585496677324241), some (-0.0996218188420712), some (-0.156093786798842), some (-0.160607547041572), some (0), 0.552452408944611, 0.540808046027982, 0.735990583727424, 0.551165900385678, 0.572724380789319, 0.424054960980141, 0.2, -0.997572785640598, -0.000423028743372402⟩,
  ⟨16.98244, some (-4.62351252253104), some (1.27), some (1.89074513329365), some (17.3177931268382), some (5.05978647768822), some (-1.86), some (6.4551), some (0.487915956166126), some (3.10444796985096), some (-0.0152341838252155), some (0.268525815724496), some (0.0537856502016188), some (-0.2), some (0.00271346830604939), some (-0.100942932517281), some (-0.157515823437773), some (-0.162045815002067), some (0), 0.555347628748772, 0.542540362051736, 0.742706523059173, 0.554192662573651, 0.575976432502086, 0.426860141468269, 0.2, -0.998438541397425, -0.000397417381695454⟩,
  ⟨17.37801, some (-4.66035535556837), some (1.27), some (1.89156473204625), some (17.2464270921393), some (5.05965812285994), some (-1.86), some (6.4551), some (0.48798410233516), some (3.10397662551514), some (-0.015236091975322), some (0.283947899520392), some (0.0538697665938398), some (-0.2), some (-0.000432925644449073), some (-0.102263873111473), some (-0.15893354839821), some (-0.163482112177913), some (0), 0.558160108097766, 0.544193145216815, 0.749194454232951, 0.55711774364316, 0.57920405770583, 0.429665953920123, 0.2, -0.999057585500572, -0.000373613063283682⟩,
  ⟨17.782793, some (-4.69743087276339), some (1.27), some (1.89269644200621), some (17.1747193773903), some (5.05957892371875), some (-1.86), some (6.4551), some (0.488052248343422), some (3.10350528229133), some (-0.0152371153688495), some (0.299385491198208), some (0.0539525874514378), some (-0.2), some (-0.00358431083764669), some (-0.103584042709582), some (-0.160346620492999), some (-0.164916180661147), some (0), 0.560886937864705, 0.545764903291252, 0.75544667610132, 0.559938176946788, 0.582397303073409, 0.432462176626573, 0.2, -0.999475999545059, -0.000351467413668816⟩,
  ⟨18.19701, some (-4.73471982128926), some (1.27), some (1.89381134421355), some (17.1028550471607), some (5.05955249850367), some (-1.86), some (6.4551), some (0.488120395239563), some (3.10303393292636), some (-0.0152375654982741), some (0.314838082510201), some (0.0540340682160636), some (-0.2), some (-0.00674073898633199), some (-0.104902847079017), some (-0.161754736306891), some (-0.166347795578638), some (0), 0.563525612601191, 0.547255216109362, 0.761457943396725, 0.562651281189642, 0.585546966684371, 0.435239122041029, 0.2, -0.999738610417668, -0.000330831889857449⟩,
  ⟨18.62087, some (-4.77221137244342), some (1.27), some (1.8949038990992), some (17.0309541369692), some (5.05958234620985), some (-1.86), some (6.4551), some (0.488188541275444), some (3.10256258951151), some (-0.0152377066810812), some (0.33030513194767), some (0.0541141680402929), some (-0.2), some (-0.00990214310382058), some (-0.106219704243254), some (-0.163157637306608), some (-0.167776762771423), some (0), 0.566074016518711, 0.548664531610201, 0.767225272268174, 0.565254652371162, 0.588644645166507, 0.437987725629671, 0.2, -0.999887610237831, -0.000311563064510759⟩,
  ⟨19.05461, some (-4.80990104354852), some (1.27), some (1.89597556762124), some (16.9590844699943), some (5.05967175811718), some (-1.86), some (6.4551), some (0.48825668841376), some (3.10209123847149), some (-0.0152377286122535), some (0.34578605568943), some (0.054192850168901), some (-0.2), some (-0.0130683631755805), some (-0.107534085169688), some (-0.16455509652919), some (-0.169202903380914), some (0), 0.568530404336573, 0.549994094572873, 0.772747643000394, 0.567746154788526, 0.591682746014965, 0.440699605287325, 0.2, -0.999960915709563, -0.000293528595428406⟩,
  ⟨19.498443, some (-4.84778935852905), some (1.27), some (1.89702754428927), some (16.8872815535322), some (5.05982377291501), some (-1.86), some (6.4551), some (0.488324834003761), some (3.10161989814066), some (-0.0152377291624535), some (0.361280185297899), some (0.0542700824757872), some (-0.2), some (-0.0162391188037029), some (-0.108845520391026), some (-0.16594687250713), some (-0.170626055820194), some (0), 0.570893381980454, 0.551246215021975, 0.778025607854152, 0.570123913448251, 0.594654467813249, 0.443367092644704, 0.2, -0.999990194256275, -0.000276613303442879⟩,
  ⟨19.952621, some (-4.88587970784449), some (1.27), some (1.89806024101315), some (16.8155653351834), some (5.06004123151989), some (-1.86), some (6.4551), some (0.488392980622932), some (3.10114855069139), some (-0.0152377291624535), some (0.376786815754324), some (0.0543458381194439), some (-0.2), some (-0.0194140621513571), some (-0.110153606623263), some (-0.167332698154471), some (-0.17204608101959), some (0), 0.573161892064799, 0.552423923266327, 0.783060817611453, 0.572386309906388, 0.597553751914799, 0.445983238005993, 0.2, -0.999998625716016, -0.000260722559248076⟩,
  ⟨20.41738, some (-4.92417716980198), some (1.27), some (1.89907350753105), some (16.743944041484), some (5.0603267111226), some (-1.86), some (6.4551), some (0.488437024104432), some (3.10088711139952), some (-0.0152377291624535), some (0.392305152462936), some (0.0544200962888668), some (-0.2), some (-0.022592841389233), some (-0.11145798796842), some (-0.168712302135528), some (-0.173462848346337), some (0), 0.575335205974156, 0.553530609279726, 0.787855546374756, 0.574531983379695, 0.6003752165584, 0.448541790905601, 0.2, -0.999999934220686, -0.000245781718957925⟩,
  ⟨20.89296, some (-4.96268794466143), some (1.27), some (1.90006631057006), some (16.6724026051443), some (5.06068229545371), some (-1.86), some (6.4551), some (0.488478299348218), some (3.10064977874775), some (-0.0152377291624535), some (0.407834341645654), some (0.0544928430194185), some (-0.2), some (-0.0257750943263989), some (-0.11275833531224), some (-0.170085438394146), some (-0.174876231943359), some (0), 0.577412913118389, 0.554570162935534, 0.792412461330474, 0.57655983873465, 0.603114102254623, 0.451037159263978, 0.2, -1, -0.000231733202770807⟩,
  ⟨21.37962, some (-5.00141892403836), some (1.27), some (1.90103681003542), some (16.6009039030584), some (5.06110953735474), some (-1.86), some (6.4551), some (0.488519574790079), some (3.10041244495705), some (-0.0152377291624535), some (0.423373466771713), some (0.054564072064575), some (-0.2), some (-0.028960466296919), some (-0.114054356712044), some (-0.171451909095636), some (-0.176286116067856), some (0), 0.579394902177121, 0.555547289386875, 0.796734526034617, 0.578469062380835, 0.60576621596811, 0.453464351836002, 0.2, -1, -0.000218531540233501⟩,
  ⟨21.877611, some (-5.04037742709611), some (1.27), some (1.90198201287455), some (16.529380166197), some (5.06160938991362), some (-1.86), some (6.4551), some (0.488560849840452), some (3.1001751134174), some (-0.0152377291624535), some (0.43892152953362), some (0.0546337858151284), some (-0.2), some (-0.0321486251349965), some (-0.115345788694515), some (-0.172811578822185), some (-0.177692393126427), some (0), 0.581281333578349, 0.556466794844906, 0.800824949704852, 0.580259146063382, 0.60832786742417, 0.455818908506965, 0.2, -1, -0.000206137632659983⟩,
  ⟨22.38721, some (-5.07957083400269), some (1.27), some (1.90289758913573), some (16.4577295284914), some (5.0621821251977), some (-1.86), some (6.4551), some (0.488602125563437), some (3.09993777801024), some (-0.0152377291624535), some (0.454477499881092), some (0.0547019962627873), some (-0.2), some (-0.0353392806350189), some (-0.116632389016912), some (-0.174164386905542), some (-0.179094964699599), some (0), 0.583072604562237, 0.557333467149523, 0.804687152576637, 0.581929917435389, 0.61079579771511, 0.458096821822565, 0.2, -1, -0.000194517831703604⟩,
  ⟨22.908672, some (-5.11900640312635), some (1.27), some (1.9037773361461), some (16.3858039063268), some (5.06282730549547), some (-1.86), some (6.4551), some (0.48864340072474), some (3.09970044583274), some (-0.0152377291624535), some (0.470040355927285), some (0.054768726011736), some (-0.2), some (-0.0385321740963525), some (-0.117913953364868), some (-0.175510350403372), some (-0.18049377500454), some (0), 0.584769308840458, 0.558152442308887, 0.808324733559292, 0.583481575420593, 0.613167101328374, 0.460294452148559, 0.2, -1, -0.000183644878504695⟩,
  ⟨23.442283, some (-5.15869113182543), some (1.27), some (1.90461465506001), some (16.3134492053808), some (5.06354390850077), some (-1.86), some (6.4551), some (0.488684676089607), some (3.09946311248476), some (-0.0152377291624535), some (0.485609136921348), some (0.0548340093462042), some (-0.2), some (-0.0417270941652492), some (-0.119190352194597), some (-0.176849564080817), some (-0.181888802062993), some (0), 0.586372192694775, 0.55892907653363, 0.811741435688023, 0.584914727534212, 0.615439143037692, 0.462408438211462, 0.2, -1, -0.000173498913026147⟩,
  ⟨23.988321, some (-5.19863167516077), some (1.27), some (1.90540485962377), some (16.240565561365), some (5.06433042764907), some (-1.86), some (6.4551), some (0.488725951276266), some (3.09922578016147), some (-0.0152377291624535), some (0.501182975301589), some (0.0548978933511844), some (-0.2), some (-0.0449238382337673), some (-0.120461530595888), some (-0.178182179594912), some (-0.183280052473884), some (0), 0.587882108948755, 0.55966869799227, 0.814941108906524, 0.586230425152393, 0.617609471005397, 0.464435604310978, 0.2, -1, -0.00016406787452545⟩,
  ⟨24.54708, none, none, none, none, none, none, none, none, none, none, none, none, none, none, none, none, none, none, 0.58929996982758, 0.560376010160549, 0.817927671091005, 0.58743019117868, 0.619675727150903, 0.466372865095897, 0.2, -1, -0.000155346152675969⟩
]

/-- src/pygmm/data/bayless_abrahamson_2019.csv, part 7 of 8 -/
def table6 : List Row := [
  ⟨25.11886, none, none, none, none, none, none, none, none, none, none, none, none, none, none, none, none, none, none, 0.590626715743868, 0.561054675854511, 0.820705094694378, 0.588516040697707, 0.621635587500562, 0.468217160902602, 0.2, -1, -0.000147332065162908⟩,
  ⟨25.70395, none, none, none, none, none, none, none, none, none, none, none, none, none, none, none, none, none, none, 0.591863349277581, 0.561707726063854, 0.823277496904603, 0.589490506357254, 0.623486829361841, 0.469965521975298, 0.2, -1, -0.000140024266841173⟩,
  ⟨26.30267, none, none, none, none, none, none, none, none, none, none, none, none, none, none, none, none, none, none, 0.593010984270723, 0.562336868928494, 0.825649247783886, 0.590356630488878, 0.625227430862945, 0.471615166694017, 0.2, -1, -0.000133417865209641⟩,
  ⟨26.91534, none, none, none, none, none, none, none, none, none, none, none, none, none, none, none, none, none, none, 0.594070893192676, 0.562942200999976, 0.827825068190345, 0.591117944770466, 0.626855670652057, 0.47316360133226, 0.2, -1, -0.000127503548668245⟩,
  ⟨27.542291, none, none, none, none, none, none, none, none, none, none, none, none, none, none, none, none, none, none, 0.595044552333081, 0.563522706823536, 0.829810116920106, 0.591778449959206, 0.628370226692444, 0.474608720200986, 0.2, -1, -0.000122267737117609⟩,
  ⟨28.183832, none, none, none, none, none, none, none, none, none, none, none, none, none, none, none, none, none, none, 0.59593368417056, 0.564076618878144, 0.831610066088855, 0.592342595960132, 0.629770272657086, 0.475948904597142, 0.2, -1, -0.000117692981391783⟩,
  ⟨28.84032, none, none, none, none, none, none, none, none, none, none, none, none, none, none, none, none, none, none, 0.596740296067306, 0.56460132066605, 0.83323116337929, 0.592815260661113, 0.631055570005195, 0.477183118543651, 0.2, -1, -0.000113758403356514⟩,
  ⟨29.512094, none, none, none, none, none, none, none, none, none, none, none, none, none, none, none, none, none, none, 0.59746671425536, 0.565093819086959, 0.83468027950505, 0.593201725692549, 0.632226553425032, 0.478310998896686, 0.2, -1, -0.000110438996387971⟩,
  ⟨30.19952, none, none, none, none, none, none, none, none, none, none, none, none, none, none, none, none, none, none, 0.598115611921205, 0.565550898010307, 0.835964939165069, 0.593507647512028, 0.633284406965889, 0.479332937020388, 0.2, -1, -0.000107703076250586⟩,
  ⟨30.902954, none, none, none, none, none, none, none, none, none, none, none, none, none, none, none, none, none, none, 0.598690030065273, 0.565969133001555, 0.837093333797862, 0.593739022553139, 0.634231127875467, 0.48025014890388, 0.2, -1, -0.000105509291419771⟩,
  ⟨31.62278, none, none, none, none, none, none, none, none, none, none, none, none, none, none, none, none, none, none, 0.599193389726423, 0.566345254457836, 0.838074314491123, 0.593902145501819, 0.635069574927129, 0.481064730338464, 0.2, -1, -0.000103805640804637⟩,
  ⟨32.359363, none, none, none, none, none, none, none, none, none, none, none, none, none, none, none, none, none, none, 0.599629494130764, 0.566676395655806, 0.838917363504462, 0.594003560067812, 0.635803497885477, 0.481779693607539, 0.2, -1, -0.000102529634758421⟩,
  ⟨33.11311, none, none, none, none, none, none, none, none, none, none, none, none, none, none, none, none, none, none, 0.600002519356961, 0.566960113640702, 0.839632543077668, 0.5940500019164, 0.636437544741254, 0.482398982094751, 0.2, -1, -0.000101610510646099⟩,
  ⟨33.884414, none, none, none, none, none, none, none, none, none, none, none, none, none, none, none, none, none, none, 0.600316992218923, 0.567194422662595, 0.840230420541538, 0.594048333734062, 0.636977243475918, 0.482927459318761, 0.2, -1, -0.000100975117959211⟩,
  ⟨34.673683, none, none, none, none, none, none, none, none, none, none, none, none, none, none, none, none, none, none, 0.600577754265497, 0.567378588714629, 0.840721969228124, 0.594005472732095, 0.637428955424099, 0.483370869188382, 0.2, -1, -0.000100555447028243⟩,
  ⟨35.481334, none, none, none, none, none, none, none, none, none, none, none, none, none, none, none, none, none, none, 0.600789911095374, 0.567513688731752, 0.841118445317425, 0.59392831124535, 0.637799797823856, 0.483735764776228, 0.2, -1, -0.000100293300158154⟩,
  ⟨36.3078, none, none, none, none, none, none, none, none, none, none, none, none, none, none, none, none, none, none, 0.600958766598285, 0.567603343906679, 0.841431241576378, 0.593823631454535, 0.638097533916718, 0.48402940367161, 0.2, -1, -0.000100140847821854⟩,
  ⟨37.153514, none, none, none, none, none, none, none, none, none, none, none, none, none, none, none, none, none, none, 0.601089742282226, 0.567653453231839, 0.841671719951072, 0.593698015645266, 0.638330430022007, 0.484259609037416, 0.2, -1, -0.000100059885204652⟩,
  ⟨38.018932, none, none, none, none, none, none, none, none, none, none, none, none, none, none, none, none, none, none, 0.601188282551225, 0.56767181840533, 0.841851026191046, 0.593557753809934, 0.638507080405537, 0.484434596907862, 0.2, -1, -0.000100021459822487⟩,
  ⟨38.90451, none, none, none, none, none, none, none, none, none, none, none, none, none, none, none, none, none, none, 0.60125974767799, 0.567666695837977, 0.841979891128002, 0.593408750792571, 0.638636202541254, 0.484562772074849, 0.2, -1, -0.000100005822796604⟩,
  ⟨39.81071, none, none, none, none, none, none, none, none, none, none, none, none, none, none, none, none, none, none, 0.601309297292179, 0.567646533453102, 0.842068424904632, 0.59325643556681, 0.638726407576895, 0.484652497175799, 0.2, -1, -0.000100000976457746⟩,
  ⟨40.73802, none, none, none, none, none, none, none, none, none, none, none, none, none, none, none, none, none, none, 0.601341768503286, 0.567619730291274, 0.842125912361868, 0.593105675607471, 0.638785953513691, 0.48471184237356, 0.2, -1, -0.00010000007076372⟩,
  ⟨41.68693, none, none, none, none, none, none, none, none, none, none, none, none, none, none, none, none, none, none, 0.601361554315823, 0.567593512473842, 0.842160619952127, 0.593068790552343, 0.638822491854094, 0.484748326370062, 0.2, -1, -0.000100000064204084⟩,
  ⟨42.65794, none, none, none, none, none, none, none, none, none, none, none, none, none, none, none, none, none, none, 0.601372489794866, 0.567572712039942, 0.842179626957834, 0.593038605092683, 0.638842822318023, 0.484768663484472, 0.2, -1, -0.000100000058249865⟩,
  ⟨43.65157, none, none, none, none, none, none, none, none, none, none, none, none, none, none, none, none, none, none, 0.601377755528905, 0.567559449342687, 0.842188696465461, 0.593017173821266, 0.638852674735172, 0.484778536222859, 0.2, -1, -0.000100000052706053⟩,
  ⟨44.668342, none, none, none, none, none, none, none, none, none, none, none, none, none, none, none, none, none, none, 0.601379810345847, 0.567553008396807, 0.842192204483753, 0.593003219437983, 0.6388565424625, 0.484782418242224, 0.2, -1, -0.000100000047459086⟩,
  ⟨45.70881, none, none, none, none, none, none, none, none, none, none, none, none, none, none, none, none, none, none, 0.60138036799808, 0.567550953342232, 0.842193148812213, 0.592994370957294, 0.638857597727912, 0.484783478947401, 0.2, -1, -0.000100000042455516⟩,
  ⟨46.7735, none, none, none, none, none, none, none, none, none, none, none, none, none, none, none, none, none, none, 0.601380435667345, 0.567550679895716, 0.842193262776061, 0.59298836831268, 0.638857726233113, 0.48478360823915, 0.2, -1, -0.000100000037674055⟩,
  ⟨47.862991, none, none, none, none, none, none, none, none, none, none, none, none, none, none, none, none, none, none, 0.601380435667345, 0.567550679895716, 0.842193262776061, 0.592983413875179, 0.638857726233113, 0.48478360823915, 0.2, -1, -0.000100000033107183⟩,
  ⟨48.97789, none, none, none, none, none, none, none, none, none, none, none, none, none, none, none, none, none, none, 0.601380435667345, 0.567550679895716, 0.842193262776061, 0.592978178047766, 0.638857726233113, 0.48478360823915, 0.2, -1, -0.000100000028751631⟩,
  ⟨50.11873, none, none, none, none, none, none, none, none, none, none, none, none, none, none, none, none, none, none, 0.601380435667345, 0.567550679895716, 0.842193262776061, 0.592971710288749, 0.638857726233113, 0.48478360823915, 0.2, -1, -0.000100000024604238⟩,
  ⟨51.286144, none, none, none, none, none, none, none, none, none, none, none, none, none, none, none, none, none, none, 0.601380435667345, 0.567550679895716, 0.842193262776061, 0.592963344503308, 0.638857726233113, 0.48478360823915, 0.2, -1, -0.000100000020660538⟩,
  ⟨52.480751, none, none, none, none, none, none, none, none, none, none, none, none, none, none, none, none, none, none, 0.601380435667345, 0.567550679895716, 0.842193262776061, 0.592952622202039, 0.638857726233113, 0.48478360823915, 0.2, -1, -0.000100000016914573⟩,
  ⟨53.703182, none, none, none, none, none, none, none, none, none, none, none, none, none, none, none, none, none, none, 0.601380435667344, 0.567550679895716, 0.842193262776061, 0.592939235254987, 0.638857726233113, 0.48478360823915, 0.2, -1, -0.000100000013359167⟩,
  ⟨54.95409, none, none, none, none, none, none, none, none, none, none, none, none, none, none, none, none, none, none, 0.601380435667345, 0.567550679895716, 0.842193262776061, 0.592922984527097, 0.638857726233113, 0.48478360823915, 0.2, -1, -0.000100000009986317⟩,
  ⟨56.23413, none, none, none, none, none, none, none, none, none, none, none, none, none, none, none, none, none, none, 0.601380435667344, 0.567550679895715, 0.842193262776061, 0.592903750206731, 0.638857726233113, 0.48478360823915, 0.2, -1, -0.000100000006787557⟩,
  ⟨57.543991, none, none, none, none, none, none, none, none, none, none, none, none, none, none, none, none, none, none, 0.601380435667344, 0.567550679895715, 0.84219326277606, 0.59288147044702, 0.638857726233112, 0.48478360823915, 0.2, -1, -0.00010000000375425⟩,
  ⟨58.884361, none, none, none, none, none, none, none, none, none, none, none, none, none, none, none, none, none, none, 0.601380435667344, 0.567550679895715, 0.842193262776061, 0.59285612585987, 0.638857726233113, 0.48478360823915, 0.2, -1, -0.000100000000877805⟩,
  ⟨60.255954, none, none, none, none, none, none, none, none, none, none, none, none, none, none, none, none, none, none, 0.601380435667344, 0.567550679895715, 0.84219326277606, 0.592827728141639, 0.638857726233113, 0.48478360823915, 0.2, -1, -0.0001⟩,
  ⟨61.6595, none, none, none, none, none, none, none, none, none, none, none, none, none, none, none, none, none, none, 0.601380435667344, 0.567550679895715, 0.842193262776061, 0.592796311642508, 0.638857726233113, 0.48478360823915, 0.2, -1, -0.0001⟩
]

/-- src/pygmm/data/bayless_abrahamson_2019.csv, part 8 of 8 -/
def table7 : List Row := [
  ⟨63.09573, none, none, none, none, none, none, none, none, none, none, none, none, none, none, none, none, none, none, 0.601380435667345, 0.567550679895716, 0.842193262776061, 0.592761927059788, 0.638857726233113, 0.484783608239151, 0.2, -1, -0.0001⟩,
  ⟨64.565414, none, none, none, none, none, none, none, none, none, none, none, none, none, none, none, none, none, none, 0.601380435667344, 0.567550679895715, 0.84219326277606, 0.59272463668547, 0.638857726233113, 0.48478360823915, 0.2, -1, -0.0001⟩,
  ⟨66.06933, none, none, none, none, none, none, none, none, none, none, none, none, none, none, none, none, none, none, 0.601380435667344, 0.567550679895715, 0.842193262776061, 0.592684510807461, 0.638857726233113, 0.48478360823915, 0.2, -1, -0.0001⟩,
  ⟨67.608283, none, none, none, none, none, none, none, none, none, none, none, none, none, none, none, none, none, none, 0.601380435667345, 0.567550679895716, 0.842193262776061, 0.592641624978624, 0.638857726233113, 0.484783608239151, 0.2, -1, -0.0001⟩,
  ⟨69.183082, none, none, none, none, none, none, none, none, none, none, none, none, none, none, none, none, none, none, 0.601380435667344, 0.567550679895715, 0.84219326277606, 0.592596057945983, 0.638857726233113, 0.48478360823915, 0.2, -0.999999999999999, -0.0001⟩,
  ⟨70.79456, none, none, none, none, none, none, none, none, none, none, none, none, none, none, none, none, none, none, 0.601380435667345, 0.567550679895716, 0.842193262776061, 0.592547890086302, 0.638857726233113, 0.48478360823915, 0.2, -1, -0.0001⟩,
  ⟨72.443572, none, none, none, none, none, none, none, none, none, none, none, none, none, none, none, none, none, none, 0.601380435667344, 0.567550679895716, 0.84219326277606, 0.592497202231624, 0.638857726233113, 0.48478360823915, 0.2, -1, -0.0001⟩,
  ⟨74.131004, none, none, none, none, none, none, none, none, none, none, none, none, none, none, none, none, none, none, 0.601380435667344, 0.567550679895716, 0.842193262776061, 0.592444074794601, 0.638857726233113, 0.48478360823915, 0.2, -0.999999999999999, -0.0001⟩,
  ⟨75.857734, none, none, none, none, none, none, none, none, none, none, none, none, none, none, none, none, none, none, 0.601380435667344, 0.567550679895715, 0.84219326277606, 0.592388587122013, 0.638857726233113, 0.48478360823915, 0.2, -1, -0.0001⟩,
  ⟨77.62469, none, none, none, none, none, none, none, none, none, none, none, none, none, none, none, none, none, none, 0.601380435667345, 0.567550679895715, 0.842193262776061, 0.592330817018169, 0.638857726233113, 0.48478360823915, 0.2, -1, -0.0001⟩,
  ⟨79.432792, none, none, none, none, none, none, none, none, none, none, none, none, none, none, none, none, none, none, 0.601380435667344, 0.567550679895715, 0.84219326277606, 0.59227084038939, 0.638857726233113, 0.48478360823915, 0.2, -1, -0.0001⟩,
  ⟨81.28303, none, none, none, none, none, none, none, none, none, none, none, none, none, none, none, none, none, none, 0.601380435667345, 0.567550679895716, 0.842193262776061, 0.592208730967711, 0.638857726233113, 0.48478360823915, 0.2, -1, -0.0001⟩,
  ⟨83.17635, none, none, none, none, none, none, none, none, none, none, none, none, none, none, none, none, none, none, 0.601380435667344, 0.567550679895715, 0.84219326277606, 0.59214456007685, 0.638857726233113, 0.48478360823915, 0.2, -1, -0.0001⟩,
  ⟨85.11377, none, none, none, none, none, none, none, none, none, none, none, none, none, none, none, none, none, none, 0.601380435667344, 0.567550679895715, 0.842193262776061, 0.592078396407091, 0.638857726233113, 0.48478360823915, 0.2, -1, -0.0001⟩,
  ⟨87.096321, none, none, none, none, none, none, none, none, none, none, none, none, none, none, none, none, none, none, 0.601380435667345, 0.567550679895716, 0.842193262776061, 0.592010305768132, 0.638857726233113, 0.48478360823915, 0.2, -1, -0.0001⟩,
  ⟨89.1251, none, none, none, none, none, none, none, none, none, none, none, none, none, none, none, none, none, none, 0.601380435667344, 0.567550679895715, 0.842193262776061, 0.591940350790599, 0.638857726233113, 0.48478360823915, 0.2, -1, -0.0001⟩,
  ⟨91.2011, none, none, none, none, none, none, none, none, none, none, none, none, none, none, none, none, none, none, 0.601380435667344, 0.567550679895715, 0.842193262776061, 0.591868590547812, 0.638857726233113, 0.48478360823915, 0.2, -1, -0.0001⟩,
  ⟨93.32544, none, none, none, none, none, none, none, none, none, none, none, none, none, none, none, none, none, none, 0.601380435667345, 0.567550679895716, 0.842193262776061, 0.591795080069658, 0.638857726233113, 0.48478360823915, 0.2, -1, -0.0001⟩,
  ⟨95.49926, none, none, none, none, none, none, none, none, none, none, none, none, none, none, none, none, none, none, 0.601380435667344, 0.567550679895715, 0.84219326277606, 0.59171986972011, 0.638857726233113, 0.48478360823915, 0.2, -0.999999999999999, -0.0001⟩,
  ⟨97.723724, none, none, none, none, none, none, none, none, none, none, none, none, none, none, none, none, none, none, 0.601380435667344, 0.567550679895715, 0.84219326277606, 0.591643004408915, 0.638857726233113, 0.48478360823915, 0.2, -1, -0.0001⟩,
  ⟨100, none, none, none, none, none, none, none, none, none, none, none, none, none, none, none, none, none, none, 0.601380435667344, 0.567550679895715, 0.842193262776061, 0.591564522606274, 0.638857726233113, 0.48478360823915, 0.2, -1, -0.0001⟩
]

/-- src/pygmm/data/bayless_abrahamson_2019.csv, all rows -/
def table : List Row := table0 ++ table1 ++ table2 ++ table3 ++ table4 ++ table5 ++ table6 ++ table7

end BA19
