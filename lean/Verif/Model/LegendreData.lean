/-!
# The quadrature tables for `double`, transcribed by tools/gen_legendre.py

Every decimal literal of `matslise/util/legendre_data.h` (lines 2-19) times `10^24`.
-/
namespace Verif.Legendre

/-- `nodes<double, 2>` — legendre_data.h:2. -/
def nodes2 : List Int := [-577350269189625765000000, 577350269189625765000000]
/-- `weights<double, 2>`, row by row — legendre_data.h:3. -/
def weights2 : List (List Int) := [
  [500000000000000000000000, 500000000000000000000000],
  [-433012701892219323000000, 433012701892219323000000]]

/-- `nodes<double, 4>` — legendre_data.h:4. -/
def nodes4 : List Int := [-861136311594052575000000, -339981043584856265000000, 339981043584856265000000, 861136311594052575000000]
/-- `weights<double, 4>`, row by row — legendre_data.h:5. -/
def weights4 : List (List Int) := [
  [173927422568726929000000, 326072577431273071000000, 326072577431273071000000, 173927422568726929000000],
  [-224662828733840527000000, -166287742739232104000000, 166287742739232104000000, 224662828733840527000000],
  [133127010504727875000000, -133127010504727875000000, -133127010504727875000000, 133127010504727875000000],
  [-46378375425243413200000, 117471558797219130000000, -117471558797219130000000, 46378375425243413200000]]

/-- `nodes<double, 6>` — legendre_data.h:6. -/
def nodes6 : List Int := [-932469514203152028000000, -661209386466264514000000, -238619186083196909000000, 238619186083196909000000, 661209386466264514000000, 932469514203152028000000]
/-- `weights<double, 6>`, row by row — legendre_data.h:7. -/
def weights6 : List (List Int) := [
  [85662246189585172400000, 180380786524069304000000, 233956967286345524000000, 233956967286345524000000, 180380786524069304000000, 85662246189585172400000],
  [-119816149634929945000000, -178904203781823147000000, -83739931668541341300000, 83739931668541341300000, 178904203781823147000000, 119816149634929945000000],
  [86117229686228388400000, 35128431945975238700000, -121245661632203627000000, -121245661632203627000000, 35128431945975238700000, 86117229686228388400000],
  [-47090137249238999200000, 42475399935990974400000, 66318993592804834300000, -66318993592804834300000, -42475399935990974400000, 47090137249238999200000],
  [20334317061025267700000, -43451620554800671600000, 23117303493775403900000, 23117303493775403900000, -43451620554800671600000, 20334317061025267700000],
  [-6057486405512407450000, 18254269896350841900000, -26910967630559600700000, 26910967630559600700000, -18254269896350841900000, 6057486405512407450000]]

/-- `nodes<double, 8>` — legendre_data.h:8. -/
def nodes8 : List Int := [-960289856497536232000000, -796666477413626740000000, -525532409916328986000000, -183434642495649805000000, 183434642495649805000000, 525532409916328986000000, 796666477413626740000000, 960289856497536232000000]
/-- `weights<double, 8>`, row by row — legendre_data.h:9. -/
def weights8 : List (List Int) := [
  [50614268145188129500000, 111190517226687236000000, 156853322938943644000000, 181341891689180991000000, 181341891689180991000000, 156853322938943644000000, 111190517226687236000000, 50614268145188129500000],
  [-72906552440805792400000, -132872636521176152000000, -123647257211230889000000, -49896577607234645500000, 49896577607234645500000, 123647257211230889000000, 132872636521176152000000, 72906552440805792400000],
  [55880360885646786900000, 62824895835803748400000, -16807525509636831400000, -101897731211813704000000, -101897731211813704000000, -16807525509636831400000, 62824895835803748400000, 55880360885646786900000],
  [-34252352853801863000000, -6719544555495040250000, 58390093754478790700000, 41211060836985369600000, -41211060836985369600000, -58390093754478790700000, 6719544555495040250000, 34252352853801863000000],
  [18144088583609621900000, -15181011967377348600000, -28849082662283151800000, 25886006046050878400000, 25886006046050878400000, -28849082662283151800000, -15181011967377348600000, 18144088583609621900000],
  [-8400917461832933540000, 15415480520685527300000, -1673931593912637600000, -18175276982791302800000, 18175276982791302800000, 1673931593912637600000, -15415480520685527300000, 8400917461832933540000],
  [3279565485422379560000, -8736052861615071900000, 9634450992227123050000, -4177963616034430740000, -4177963616034430740000, 9634450992227123050000, -8736052861615071900000, 3279565485422379560000],
  [-919472315997762188000, 2952319820973376000000, -4935738696242225040000, 6132082483764165340000, -6132082483764165340000, 4935738696242225040000, -2952319820973376000000, 919472315997762188000]]

/-- `nodes<double, 10>` — legendre_data.h:10. -/
def nodes10 : List Int := [-973906528517171720000000, -865063366688984511000000, -679409568299024406000000, -433395394129247191000000, -148874338981631211000000, 148874338981631211000000, 433395394129247191000000, 679409568299024406000000, 865063366688984511000000, 973906528517171720000000]
/-- `weights<double, 10>`, row by row — legendre_data.h:11. -/
def weights10 : List (List Int) := [
  [33335672154344068600000, 74725674575290296300000, 109543181257991021000000, 134633359654998178000000, 147762112357376435000000, 147762112357376435000000, 134633359654998178000000, 109543181257991021000000, 74725674575290296300000, 33335672154344068600000],
  [-48698743115435668300000, -96963665439309114800000, -111637028232890192000000, -87524216955933934200000, -32996980205600906200000, 32996980205600906200000, 87524216955933934200000, 111637028232890192000000, 96963665439309114800000, 48698743115435668300000],
  [38450234716914291700000, 58146096979734908700000, 26344593161123017300000, -36730109155035452000000, -86210815702736766400000, -86210815702736766400000, -36730109155035452000000, 26344593161123017300000, 58146096979734908700000, 38450234716914291700000],
  [-24749690282343302800000, -20975309366679075100000, 22532503090632162300000, 52608965638796200200000, 27805833536458993200000, -27805833536458993200000, -52608965638796200200000, -22532503090632162300000, 20975309366679075100000, 24749690282343302800000],
  [14139916345887590400000, 788785474682159593000, -26113698164069702800000, -13254131982653399600000, 24439128326153352400000, 24439128326153352400000, -13254131982653399600000, -26113698164069702800000, 788785474682159593000, 14139916345887590400000],
  [-7369578437404788040000, 5841655726514256970000, 12434442207491391400000, -10215538613712219300000, -12741171236643357100000, 12741171236643357100000, 10215538613712219300000, -12434442207491391400000, -5841655726514256970000, 7369578437404788040000],
  [3520319846423866770000, -5711885233293426180000, -1293796797210641600000, 8784826604934449290000, -5299464420854248280000, -5299464420854248280000, 8784826604934449290000, -1293796797210641600000, -5711885233293426180000, 3520319846423866770000],
  [-1519904413411764820000, 3587104109517877180000, -2691635986794078660000, -1094193646333697330000, 4568377655713140920000, -4568377655713140920000, 1094193646333697330000, 2691635986794078660000, -3587104109517877180000, 1519904413411764820000],
  [565745561424785223000, -1663085671433838610000, 2313118972668910750000, -2009110083911350150000, 793331221251492766000, 793331221251492766000, -2009110083911350150000, 2313118972668910750000, -1663085671433838610000, 565745561424785223000],
  [-153768532851114762000, 508897471604184645000, -901218097620560207000, 1227108697300426950000, -1410581852829744360000, 1410581852829744360000, -1227108697300426950000, 901218097620560207000, -508897471604184645000, 153768532851114762000]]

/-- `nodes<double, 12>` — legendre_data.h:12. -/
def nodes12 : List Int := [-981560634246719251000000, -904117256370474857000000, -769902674194304687000000, -587317954286617447000000, -367831498998180194000000, -125233408511468915000000, 125233408511468915000000, 367831498998180194000000, 587317954286617447000000, 769902674194304687000000, 904117256370474857000000, 981560634246719251000000]
/-- `weights<double, 12>`, row by row — legendre_data.h:13. -/
def weights12 : List (List Int) := [
  [23587668193255913300000, 53469662997659214700000, 80039164271673113000000, 101583713361532961000000, 116746268269177404000000, 124573522906701393000000, 124573522906701393000000, 116746268269177404000000, 101583713361532961000000, 80039164271673113000000, 53469662997659214700000, 23587668193255913300000],
  [-34729089828260160900000, -72514267512746324000000, -92433549919557565400000, -89492908080500498400000, -64414432289842806800000, -23401150325831649100000, 23401150325831649100000, 64414432289842806800000, 89492908080500498400000, 92433549919557565400000, 72514267512746324000000, 34729089828260160900000],
  [27868591677512966200000, 48533211365636571200000, 38931568915629462500000, 2211168770291710450000, -43349346185373802300000, -74195194543696909300000, -74195194543696909300000, -43349346185373802300000, 2211168770291710450000, 38931568915629462500000, 48533211365636571200000, 27868591677512966200000],
  [-18408074120865039900000, -22993006631582060900000, 977275002428898362000, 33287695281652758200000, 43652854487555474500000, 19940783974793018900000, -19940783974793018900000, -43652854487555474500000, -33287695281652758200000, -977275002428898362000, 22993006631582060900000, 18408074120865039900000],
  [10921571331843394700000, 7006961994483527230000, -13985861976542354800000, -22740538192677111400000, -3433602426856679930000, 22231469269749224000000, 22231469269749224000000, -3433602426856679930000, -22740538192677111400000, -13985861976542354800000, 7006961994483527230000, 10921571331843394700000],
  [-6006808208100046600000, 257746733443832718000, 11537384218125703600000, 4229671919250356980000, -12330182712833790400000, -9329638475090488100000, 9329638475090488100000, 12330182712833790400000, -4229671919250356980000, -11537384218125703600000, -257746733443832718000, 6006808208100046600000],
  [3100799715151816080000, -2361029234720725760000, -5414176411140783200000, 4152041731191098670000, 5946642045595045640000, -5424277846076451430000, -5424277846076451430000, 5946642045595045640000, 4152041731191098670000, -5414176411140783200000, -2361029234720725760000, 3100799715151816080000],
  [-1505788408591651260000, 2211806475256804970000, 1094817391372404910000, -3848695224368679470000, 1259373049139244010000, 3454015350235996430000, -3454015350235996430000, -1259373049139244010000, 3848695224368679470000, -1094817391372404910000, -2211806475256804970000, 1505788408591651260000],
  [683391428640062292000, -1449325102803402550000, 653182545209875797000, 1213959817724681000000, -2193272094284535320000, 1092063405513318790000, 1092063405513318790000, -2193272094284535320000, 1213959817724681000000, 653182545209875797000, -1449325102803402550000, 683391428640062292000],
  [-284204690094174714000, 760575040770708929000, -838995975585661462000, 330746014753105427000, 497084068439302460000, -1116602115015230420000, 1116602115015230420000, -497084068439302460000, -330746014753105427000, 838995975585661462000, -760575040770708929000, 284204690094174714000],
  [102969724991831989000, -319204345920215234000, 496696182438057280000, -541375146338326228000, 417615289282304920000, -156701704453652721000, -156701704453652721000, 417615289282304920000, -541375146338326228000, 496696182438057280000, -319204345920215234000, 102969724991831989000],
  [-27474880681294694800, 92467141433414330200, -168965636515782197000, 241417323901016905000, -297352002765297323000, 327715448160510166000, -327715448160510166000, 297352002765297323000, -241417323901016905000, 168965636515782197000, -92467141433414330200, 27474880681294694800]]

/-- `nodes<double, 14>` — legendre_data.h:14. -/
def nodes14 : List Int := [-986283808696812339000000, -928434883663573517000000, -827201315069764993000000, -687292904811685470000000, -515248636358154092000000, -319112368927889760000000, -108054948707343662000000, 108054948707343662000000, 319112368927889760000000, 515248636358154092000000, 687292904811685470000000, 827201315069764993000000, 928434883663573517000000, 986283808696812339000000]
/-- `weights<double, 14>`, row by row — legendre_data.h:15. -/
def weights14 : List (List Int) := [
  [17559730165875932300000, 40079043579880094900000, 60759285343951594300000, 78601583579096760800000, 92769198738968906300000, 102599231860647802000000, 107631926731578895000000, 107631926731578895000000, 102599231860647802000000, 92769198738968906300000, 78601583579096760800000, 60759285343951594300000, 40079043579880094900000, 17559730165875932300000],
  [-25978316321532634300000, -55816173245149903500000, -75390241108823785800000, -81033466051313834700000, -71698804719438475800000, -49111025893849714200000, -17445243483379993000000, 17445243483379993000000, 49111025893849714200000, 71698804719438475800000, 81033466051313834700000, 75390241108823785800000, 55816173245149903500000, 25978316321532634300000],
  [21052659602742255200000, 39727700654333209900000, 39979079895837370300000, 20491168099772756300000, -11802360011605244400000, -44534600146073230000000, -64913648095007126400000, -64913648095007126400000, -44534600146073230000000, -11802360011605244400000, 20491168099772756300000, 39979079895837370300000, 39727700654333209900000, 21052659602742255200000],
  [-14121868276070263600000, -21325724062428908200000, -9264111611425938610000, 15082341054854012400000, 34977543387422729900000, 35678864335900736000000, 14967542422512418700000, -14967542422512418700000, -35678864335900736000000, -34977543387422729900000, -15082341054854012400000, 9264111611425938610000, 21325724062428908200000, 14121868276070263600000],
  [8563918666966414140000, 8866390435473027180000, -4871743493429919350000, -18577503477993354100000, -16291601471301927900000, 2221664765552870440000, 20088874574732889300000, 20088874574732889300000, 2221664765552870440000, -16291601471301927900000, -18577503477993354100000, -4871743493429919350000, 8866390435473027180000, 8563918666966414140000],
  [-4852798294054387830000, -2352682370101129020000, 7344481821912161030000, 9304840630967619550000, -1759294221079018380000, -11993214139640781300000, -7091857304298170700000, 7091857304298170700000, 11993214139640781300000, 1759294221079018380000, -9304840630967619550000, -7344481821912161030000, 2352682370101129020000, 4852798294054387830000],
  [2607984261910945270000, -301788336951463645000, -5115611518423696560000, -1337627756065899790000, 5884578701628433620000, 3477558363085916400000, -5215093715184235180000, -5215093715184235180000, 3477558363085916400000, 5884578701628433620000, -1337627756065899790000, -5115611518423696560000, -301788336951463645000, 2607984261910945270000],
  [-1337916650384847010000, 987676570606899083000, 2387785798436768900000, -1733937581166905920000, -2734514610767737560000, 2315512174509700220000, 2676063841146912000000, -2676063841146912000000, -2315512174509700220000, 2734514610767737560000, 1733937581166905920000, -2387785798436768900000, -987676570606899083000, 1337916650384847010000],
  [656004415727201220000, -887976593065482499000, -635268248904609355000, 1648844393296925390000, -186314396522580344000, -1779872681454405400000, 1184583110922951090000, 1184583110922951090000, -1779872681454405400000, -186314396522580344000, 1648844393296925390000, -635268248904609355000, -887976593065482499000, 656004415727201220000],
  [-306352580242135869000, 592217360830789032000, -117428601370910872000, -708125458655533633000, 871046697999486498000, -52239999068838105200, -888373596684886505000, 888373596684886505000, 52239999068838105200, -871046697999486498000, 708125458655533633000, 117428601370910872000, -592217360830789032000, 306352580242135869000],
  [134927480050455906000, -330521760376841277000, 278561152629819321000, 52742333133111498400, -419461461953040046000, 512203858399728038000, -228451601883233340000, -228451601883233340000, 512203858399728038000, -419461461953040046000, 52742333133111498400, 278561152629819321000, -330521760376841277000, 134927480050455906000],
  [-54842129260957163500, 157885860888227147000, -208593155912442364000, 156922072362101384000, -13691135759053924000, -156507910199747710000, 270216390274585116000, -270216390274585116000, 156507910199747710000, 13691135759053924000, -156922072362101384000, 208593155912442364000, -157885860888227147000, 54842129260957163500],
  [19533077695328713000, -62522414510463492200, 103741708885308314000, -126734265775361844000, 121784680574042909000, -87713562084464813200, 31910775215610242500, 31910775215610242500, -87713562084464813200, 121784680574042909000, -126734265775361844000, 103741708885308314000, -62522414510463492200, 19533077695328713000],
  [-5149227997056814460, 17508850710752646100, -32607351824513610400, 47943036907419333100, -61453858806995862300, 71465503573489644300, -76783170556396676900, 76783170556396676900, -71465503573489644300, 61453858806995862300, -47943036907419333100, 32607351824513610400, -17508850710752646100, 5149227997056814460]]

/-- `nodes<double, 16>` — legendre_data.h:16. -/
def nodes16 : List Int := [-989400934991649933000000, -944575023073232576000000, -865631202387831744000000, -755404408355003034000000, -617876244402643748000000, -458016777657227386000000, -281603550779258913000000, -95012509837637440200000, 95012509837637440200000, 281603550779258913000000, 458016777657227386000000, 617876244402643748000000, 755404408355003034000000, 865631202387831744000000, 944575023073232576000000, 989400934991649933000000]
/-- `weights<double, 16>`, row by row — legendre_data.h:17. -/
def weights16 : List (List Int) := [
  [13576229705877042200000, 31126761969323992500000, 47579255841246372900000, 62314485627766923100000, 74797994408288378600000, 84578259697501268700000, 91301707522461794500000, 94725305227534248100000, 94725305227534248100000, 91301707522461794500000, 84578259697501268700000, 74797994408288378600000, 62314485627766923100000, 47579255841246372900000, 31126761969323992500000, 13576229705877042200000],
  [-20148501546984237100000, -44102342858053842700000, -61779132663864547000000, -70608955721384418500000, -69323855810764756000000, -58107392949758511900000, -38566327545801923200000, -13500133492206460500000, 13500133492206460500000, 38566327545801923200000, 58107392949758511900000, 69323855810764756000000, 70608955721384418500000, 61779132663864547000000, 44102342858053842700000, 20148501546984237100000],
  [16433539270410485300000, 32618238172584782700000, 37110396212094065200000, 27726342009241927000000, 6793208089651912600000, -19593711214799934800000, -43488048729771417000000, -57599963809411798800000, -57599963809411798800000, -43488048729771417000000, -19593711214799934800000, 6793208089651912600000, 27726342009241927000000, 37110396212094065200000, 32618238172584782700000, 16433539270410485300000],
  [-11133723926544393700000, -18794524142091661200000, -13452684785021579900000, 3023670524530765990000, 22062355040882104100000, 33067276032235412000000, 29285470029704442200000, 11634888563073361300000, -11634888563073361300000, -29285470029704442200000, -33067276032235412000000, -22062355040882104100000, -3023670524530765990000, 13452684785021579900000, 18794524142091661200000, 11133723926544393700000],
  [6846361966956129230000, 8963287451315125580000, 575937947446312999000, -11927246227218228400000, -17628488440012737100000, -10425660580964869300000, 5399462556367970820000, 18196345326110306100000, 18196345326110306100000, 5399462556367970820000, -10425660580964869300000, -17628488440012737100000, -11927246227218228400000, 575937947446312999000, 8963287451315125580000, 6846361966956129230000],
  [-3952006247623480050000, -3406296751594421610000, 3679581802977463020000, 8960587366967038560000, 5047563642142877660000, -5139932256608329330000, -10876563477468701500000, -5558447745916913140000, 5558447745916913140000, 10876563477468701500000, 5139932256608329330000, -5047563642142877660000, -8960587366967038560000, -3679581802977463020000, 3406296751594421610000, 3952006247623480050000],
  [2175714085402155930000, 788342493165305929000, -3623905548873240050000, -3743721850322985660000, 1926202067678862150000, 5687708040726817320000, 1693280534214724290000, -4903619821991637030000, -4903619821991637030000, 1693280534214724290000, 5687708040726817320000, 1926202067678862150000, -3743721850322985660000, -3623905548873240050000, 788342493165305929000, 2175714085402155930000],
  [-1151607497845608230000, 197508636954521191000, 2285832222544428940000, 411672251530240773000, -2750102963118202500000, -1289213574344006700000, 2667323231737321750000, 2123405915269275720000, -2123405915269275720000, -2667323231737321750000, 1289213574344006700000, 2750102963118202500000, -411672251530240773000, -2285832222544428940000, -197508636954521191000, 1151607497845608230000],
  [588234380664847116000, -423733267483219645000, -1065709617759887700000, 740505209941692774000, 1254419827834290170000, -999626099177658680000, -1282449096001065700000, 1188358661981001310000, 1188358661981001310000, -1282449096001065700000, -999626099177658680000, 1254419827834290170000, 740505209941692774000, -1065709617759887700000, -423733267483219645000, 588234380664847116000],
  [-290176775324383053000, 366888829447281640000, 330342696165508606000, -706335731912006646000, -44032945403919728800, 846171134149103144000, -369596419113646210000, -716881100715432399000, 716881100715432399000, 369596419113646210000, -846171134149103144000, 44032945403919728800, 706335731912006646000, -330342696165508606000, -366888829447281640000, 290176775324383053000],
  [137961675657311407000, -246108802893488691000, -4048107609672680250, 354430692714442766000, -320087666253326751000, -129101350983867019000, 465729057682765582000, -258775498314165154000, -258775498314165154000, 465729057682765582000, -129101350983867019000, -320087666253326751000, 354430692714442766000, -4048107609672680250, -246108802893488691000, 137961675657311407000],
  [-62870606210307841800, 142096651494187786000, -87220307489189929000, -85581623706593598100, 218878645148305217000, -170979939911890240000, -35429138096882503000, 222932550402954565000, -222932550402954565000, 35429138096882503000, 170979939911890240000, -218878645148305217000, 85581623706593598100, 87220307489189929000, -142096651494187786000, 62870606210307841800],
  [27157725784333646000, -72670708790902466500, 79750873233520904600, -29352448296850129900, -53549407526505555400, 116795770534878252000, -116666340495211473000, 48534535556736682500, 48534535556736682500, -116666340495211473000, 116795770534878252000, -53549407526505555400, -29352448296850129900, 79750873233520904600, -72670708790902466500, 27157725784333646000],
  [-10871499713776996000, 32788638767193484700, -48061786772540848600, 46210094798943827900, -24935403651313297000, -9232919874000745390, 43715118037050949400, -65181848053990712800, 65181848053990712800, -43715118037050949400, 9232919874000745390, 24935403651313297000, -46210094798943827900, 48061786772540848600, -32788638767193484700, 10871499713776996000],
  [3827236966133025610, -12508264396370868800, 21613860776110507900, -28249803934602434600, 30377333786115620900, -27071570563225833900, 18666591640600830600, -6655384274760868730, -6655384274760868730, 18666591640600830600, -27071570563225833900, 30377333786115620900, -28249803934602434600, 21613860776110507900, -12508264396370868800, 3827236966133025610],
  [-1000406032225376380, 3424710462969626590, -6457474689693736600, 9671619195471820190, -12714855255919233200, 15286051932249891300, -17143131861245090000, 18115720487756402900, -18115720487756402900, 17143131861245090000, -15286051932249891300, 12714855255919233200, -9671619195471820190, 6457474689693736600, -3424710462969626590, 1000406032225376380]]

/-- `nodes<double, 18>` — legendre_data.h:18. -/
def nodes18 : List Int := [-991565168420930947000000, -955823949571397755000000, -892602466497555739000000, -803704958972523116000000, -691687043060353208000000, -559770831073947535000000, -411751161462842646000000, -251886225691505510000000, -84775013041735301200000, 84775013041735301200000, 251886225691505510000000, 411751161462842646000000, 559770831073947535000000, 691687043060353208000000, 803704958972523116000000, 892602466497555739000000, 955823949571397755000000, 991565168420930947000000]
/-- `weights<double, 18>`, row by row — legendre_data.h:19. -/
def weights18 : List (List Int) := [
  [10808006763241684000000, 24857274447485083400000, 38212865127444396600000, 50471022053143755800000, 61277603355739219100000, 70321457335325322000000, 77342337563132623400000, 82138241872916361400000, 84571191481571795900000, 84571191481571795900000, 82138241872916361400000, 77342337563132623400000, 70321457335325322000000, 61277603355739219100000, 50471022053143755800000, 38212865127444396600000, 24857274447485083400000, 10808006763241684000000],
  [-16075264569732451700000, -35638767356963064500000, -51163346497042954600000, -60845716062784817400000, -63577386406434656200000, -59045850922389299300000, -47768695982806651000000, -31034237595457318200000, -10754285791208013600000, 10754285791208013600000, 31034237595457318200000, 47768695982806651000000, 59045850922389299300000, 63577386406434656200000, 60845716062784817400000, 51163346497042954600000, 35638767356963064500000, 16075264569732451700000],
  [13169586298596175600000, 27044687686557623700000, 33202620892259276700000, 29583115881652980700000, 16671065913878341500000, -2635729531710489130000, -23752940911350309300000, -41565029951656266700000, -51717376278227112500000, -51717376278227112500000, -41565029951656266700000, -23752940911350309300000, -2635729531710489130000, 16671065913878341500000, 29583115881652980700000, 33202620892259276700000, 27044687686557623700000, 13169586298596175600000],
  [-8983428455116909420000, -16298766260586562400000, -14679341215310629400000, -4076556845295316680000, 11271518823650707700000, 24683580620900631300000, 29987066280899364400000, 24283471777167768800000, 9297287042019324320000, -9297287042019324320000, -24283471777167768800000, -29987066280899364400000, -24683580620900631300000, -11271518823650707700000, 4076556845295316680000, 14679341215310629400000, 16298766260586562400000, 8983428455116909420000],
  [5576376216956095230000, 8398512938663552750000, 3534783646126176200000, -6298409038948496370000, -14397393712605267600000, -14654733275845333700000, -5873992983695773910000, 7146941549467381880000, 16567914659881712500000, 16567914659881712500000, 7146941549467381880000, -5873992983695773910000, -14654733275845333700000, -14397393712605267600000, -6298409038948496370000, 3534783646126176200000, 8398512938663552750000, 5576376216956095230000],
  [-3258911236267970100000, -3707780392131523370000, 1142834977923433440000, 6849472416014253700000, 7411862408756487420000, 1265924680916903860000, -6764020768618058740000, -9612186018170608860000, -4467004198422771700000, 4467004198422771700000, 9612186018170608860000, 6764020768618058740000, -1265924680916903860000, -7411862408756487420000, -6849472416014253700000, -1142834977923433440000, 3707780392131523370000, 3258911236267970100000],
  [1822631931531665280000, 1311987124294884720000, -2168813471760321110000, -4068346620781714080000, -1221364258620697480000, 3642309160291201140000, 4784821302441424670000, 472242024846516681000, -4575467192242951570000, -4575467192242951570000, 472242024846516681000, 4784821302441424670000, 3642309160291201140000, -1221364258620697480000, -4068346620781714080000, -2168813471760321110000, 1311987124294884720000, 1822631931531665280000],
  [-984068962104572303000, -260159872192145211000, 1740220700957141390000, 1501834738179770960000, -1260659130026786100000, -2554404226488286920000, -134381562617757745000, 2681307874747917930000, 1720884817705229760000, -1720884817705229760000, -2681307874747917930000, 134381562617757745000, 2554404226488286920000, 1260659130026786100000, -1501834738179770960000, -1740220700957141390000, 260159872192145211000, 984068962104572303000],
  [515376153520960366000, -111095282769596016000, -1030002343767136020000, -118689682448185168000, 1275861076365601290000, 477337984743592448000, -1309944940113586300000, -852684516855919313000, 1153841551324272140000, 1153841551324272140000, -852684516855919313000, -1309944940113586300000, 477337984743592448000, 1275861076365601290000, -118689682448185168000, -1030002343767136020000, -111095282769596016000, 515376153520960366000],
  [-262422355492233904000, 185317025533130350000, 480619544453806648000, -322047653660576532000, -576671963218867029000, 436973167750114282000, 607162346903816103000, -528026834643560636000, -587648414539469154000, 587648414539469154000, 528026834643560636000, -607162346903816103000, -436973167750114282000, 576671963218867029000, 322047653660576532000, -480619544453806648000, -185317025533130350000, 262422355492233904000],
  [129975056042625821000, -155109020237981035000, -164172237173618393000, 304761611060663658000, 64206022729314006000, -389506955985655591000, 101587846156005183000, 376648958537498472000, -268391281128851316000, -268391281128851316000, 376648958537498472000, 101587846156005183000, -389506955985655591000, 64206022729314006000, 304761611060663658000, -164172237173618393000, -155109020237981035000, 129975056042625821000],
  [-62539324810943433700, 104011517950725831000, 20973612541192791800, -167470355370365285000, 112224637867321553000, 107725406924090590000, -210772500375383618000, 46085461301470822100, 185460702790619657000, -185460702790619657000, -46085461301470822100, 210772500375383618000, -107725406924090590000, -112224637867321553000, 167470355370365285000, -20973612541192791800, -104011517950725831000, 62539324810943433700],
  [29136177117387943900, -61242613410281012200, 25287908752808193000, 57060664489060965100, -98375198979936774900, 43450193756244094000, 62686959556339086400, -114848384076999478000, 56844292795376713400, 56844292795376713400, -114848384076999478000, 62686959556339086400, 43450193756244094000, -98375198979936774900, 57060664489060965100, 25287908752808193000, -61242613410281012200, 29136177117387943900],
  [-13059496971129639000, 32611552442116235600, -29122020252672290100, -2255559459081698500, 40259967929078173100, -54440755410888211100, 30294729131689289000, 17556679113957199800, -55246183509783870900, 55246183509783870900, -17556679113957199800, -30294729131689289000, 54440755410888211100, -40259967929078173100, 2255559459081698500, 29122020252672290100, -32611552442116235600, 13059496971129639000],
  [5565862558262422220, -15792388490569726000, 20113085503739667800, -13488074460514314300, -2350808808491784590, 19862199971309469000, -29800088654781421800, 26346804730268596400, -10456592349223127400, -10456592349223127400, 26346804730268596400, -29800088654781421800, 19862199971309469000, -2350808808491784590, -13488074460514314300, 20113085503739667800, -15792388490569726000, 5565862558262422220],
  [-2204223931756205630, 6861226084477521450, -10749597541695741900, 11806047238998826900, -9105470318533375130, 3095856060992701740, 4563233150532271770, -11561066452164696200, 15716527111972676100, -15716527111972676100, 11561066452164696200, -4563233150532271770, -3095856060992701740, 9105470318533375130, -11806047238998826900, 10749597541695741900, -6861226084477521450, 2204223931756205630],
  [769502725185119987, -2551194743866358490, 4530752774112557500, -6187792455022079620, 7121919374212254250, -7084425330258584270, 6010128021487673430, -4023685272696141600, 1414794906845527560, 1414794906845527560, -4023685272696141600, 6010128021487673430, -7084425330258584270, 7121919374212254250, -6187792455022079620, 4530752774112557500, -2551194743866358490, 769502725185119987],
  [-199891296818930567, 687496812743951431, -1307426454645271140, 1983097542861320220, -2652115283365402060, 3259863001309517140, -3759705917433525490, 4114571090641732410, -4298635374619822070, 4298635374619822070, -4114571090641732410, 3759705917433525490, -3259863001309517140, 2652115283365402060, -1983097542861320220, 1307426454645271140, -687496812743951431, 199891296818930567]]

/-- `nodes<double, k>` (times `10^24`); empty for the sizes that do not exist — legendre_data.h:2-19. -/
def nodesRaw : Nat → List Int
  | 2 => nodes2
  | 4 => nodes4
  | 6 => nodes6
  | 8 => nodes8
  | 10 => nodes10
  | 12 => nodes12
  | 14 => nodes14
  | 16 => nodes16
  | 18 => nodes18
  | _ => []
/-- `weights<double, k>` (times `10^24`) — legendre_data.h:2-19. -/
def weightsRaw : Nat → List (List Int)
  | 2 => weights2
  | 4 => weights4
  | 6 => weights6
  | 8 => weights8
  | 10 => weights10
  | 12 => weights12
  | 14 => weights14
  | 16 => weights16
  | 18 => weights18
  | _ => []

end Verif.Legendre
