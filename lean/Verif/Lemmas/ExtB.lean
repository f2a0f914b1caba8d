import Verif.Lemmas.FormulaCheck

/-! Generated by tools/gen_ext.py (certificate, see Lemmas/ExtKernel). -/
namespace Verif.PL
set_option maxRecDepth 100000

/-- row 0 -/
def extB0 : PL := []
def extB1_0 : PL := [
xp 1 1 [] 2075673600]
/-- row 1 -/
def extB1 : PL := extB1_0
def extB2_0 : PL := [
xm 4 3 [1] 1037836800,
xp 5 3 [2] 1037836800,
xm 6 3 [3] 1037836800,
xp 7 3 [4] 1037836800,
xm 8 3 [5] 1037836800,
xp 9 3 [6] 1037836800,
xm 10 3 [7] 1037836800,
xp 11 3 [8] 1037836800,
xm 12 3 [9] 1037836800,
xp 13 3 [10] 1037836800,
xm 14 3 [11] 1037836800,
xp 15 3 [12] 1037836800,
xm 16 3 [13] 1037836800,
xp 17 3 [14] 1037836800,
xm 18 3 [15] 1037836800,
xp 4 4 [1] 1037836800,
xm 5 4 [2] 3113510400,
xp 6 4 [3] 6227020800,
xm 7 4 [4] 10378368000,
xp 8 4 [5] 15567552000,
xm 9 4 [6] 21794572800,
xp 10 4 [7] 29059430400,
xm 11 4 [8] 37362124800,
xp 12 4 [9] 46702656000,
xm 13 4 [10] 57081024000,
xp 14 4 [11] 68497228800,
xm 15 4 [12] 80951270400,
xp 16 4 [13] 94443148800,
xm 17 4 [14] 108972864000,
xp 18 4 [15] 124540416000,
xp 5 5 [2] 2075673600,
xm 6 5 [3] 10378368000,
xp 7 5 [4] 31135104000,
xm 8 5 [5] 72648576000,
xp 9 5 [6] 145297152000,
xm 10 5 [7] 261534873600,
xp 11 5 [8] 435891456000,
xm 12 5 [9] 684972288000,
xp 13 5 [10] 1027458432000,
xm 14 5 [11] 1484106624000,
xp 15 5 [12] 2077749273600,
xm 16 5 [13] 2833294464000,
xp 17 5 [14] 3777725952000,
xm 18 5 [15] 4940103168000,
xp 6 6 [3] 5189184000,
xm 7 6 [4] 36324288000,
xp 8 6 [5] 145297152000,
xm 9 6 [6] 435891456000,
xp 10 6 [7] 1089728640000,
xm 11 6 [8] 2397403008000,
xp 12 6 [9] 4794806016000,
xm 13 6 [10] 8904639744000,
xp 14 6 [11] 15583119552000,
xm 15 6 [12] 25971865920000,
xp 16 6 [13] 41554985472000,
xm 17 6 [14] 64221341184000,
xp 18 6 [15] 96332011776000,
xp 7 7 [4] 14529715200,
xm 8 7 [5] 130767436800,
xp 9 7 [6] 653837184000,
xm 10 7 [7] 2397403008000,
xp 11 7 [8] 7192209024000,
xm 12 7 [9] 18699743462400,
xp 13 7 [10] 43632734745600,
xm 14 7 [11] 93498717312000,
xp 15 7 [12] 186997434624000,
xm 16 7 [13] 353217376512000,
xp 17 7 [14] 635791277721600,
xm 18 7 [15] 1098184934246400,
xp 8 8 [5] 43589145600,
xm 9 8 [6] 479480601600,
xp 10 8 [7] 2876883609600,
xm 11 8 [8] 12466495641600,
xp 12 8 [9] 43632734745600,
xm 13 8 [10] 130898204236800,
xp 14 8 [11] 349061877964800,
xm 15 8 [12] 847721703628800,
xp 16 8 [13] 1907373833164800,
xm 17 8 [14] 4026678092236800,
xp 18 8 [15] 8053356184473600,
xp 9 9 [6] 136994457600,
xm 10 9 [7] 1780927948800,
xp 11 9 [8] 12466495641600,
xm 12 9 [9] 62332478208000,
xp 13 9 [10] 249329912832000,
xm 14 9 [11] 847721703628800,
xp 15 9 [12] 2543165110886400,
xm 16 9 [13] 6902876729548800,
xp 17 9 [14] 17257191823872000,
xm 18 9 [15] 40266780922368000,
xp 10 10 [7] 445231987200,
xm 11 10 [8] 6678479808000,
xp 12 10 [9] 53427838464000,
xm 13 10 [10] 302757751296000,
xp 14 10 [11] 1362409880832000,
xm 15 10 [12] 5177157547161600,
xp 16 10 [13] 17257191823872000,
xm 17 10 [14] 51771575471616000,
xp 18 10 [15] 142371832546944000,
xp 11 11 [8] 1484106624000,
xm 12 11 [9] 25229812608000,
xp 13 11 [10] 227068313472000,
xm 14 11 [11] 1438099318656000,
xp 15 11 [12] 7190496593280000,
xm 16 11 [13] 30200085691776000,
xp 17 11 [14] 110733647536512000,
xm 18 11 [15] 363839127619968000,
xp 12 12 [9] 5045962521600,
xm 13 12 [10] 95873287910400,
xp 14 12 [11] 958732879104000,
xm 15 12 [12] 6711130153728000,
xp 16 12 [13] 36911215845504000,
xm 17 12 [14] 169791592889318400,
xp 18 12 [15] 679166371557273600,
xp 13 13 [10] 17431506892800,
xm 14 13 [11] 366061644748800,
xp 15 13 [12] 4026678092236800,
xm 16 13 [13] 30871198707148800,
xp 17 13 [14] 185227192242892800,
xm 18 13 [15] 926135961214464000,
xp 14 14 [11] 61010274124800,
xm 15 14 [12] 1403236304870400,
xp 16 14 [13] 16838835658444800,
xm 17 14 [14] 140323630487040000,
xp 18 14 [15] 912103598165760000,
xp 15 15 [12] 215882508441600,
xm 16 15 [13] 5397062711040000,
xp 17 15 [14] 70161815243520000,
xm 18 15 [15] 631456337191680000,
xp 16 16 [13] 771008958720000,
xm 17 16 [14] 20817241885440000,
xp 18 16 [15] 291441386396160000,
xp 17 17 [14] 2775632251392000,
xm 18 17 [15] 80493335290368000,
xp 18 18 [15] 10061666911296000]
/-- row 2 -/
def extB2 : PL := extB2_0
def extB3_0 : PL := [
xm 5 5 [2] 1037836800,
xp 6 5 [3] 5189184000,
xp 7 5 [1,1] 259459200,
xm 7 5 [4] 15567552000,
xm 8 5 [1,2] 518918400,
xp 8 5 [5] 36324288000,
xp 9 5 [2,2] 259459200,
xp 9 5 [1,3] 518918400,
xm 9 5 [6] 72648576000,
xm 10 5 [2,3] 518918400,
xm 10 5 [1,4] 518918400,
xp 10 5 [7] 130767436800,
xp 11 5 [3,3] 259459200,
xp 11 5 [2,4] 518918400,
xp 11 5 [1,5] 518918400,
xm 11 5 [8] 217945728000,
xm 12 5 [3,4] 518918400,
xm 12 5 [2,5] 518918400,
xm 12 5 [1,6] 518918400,
xp 12 5 [9] 342486144000,
xp 13 5 [4,4] 259459200,
xp 13 5 [3,5] 518918400,
xp 13 5 [2,6] 518918400,
xp 13 5 [1,7] 518918400,
xm 13 5 [10] 513729216000,
xm 14 5 [4,5] 518918400,
xm 14 5 [3,6] 518918400,
xm 14 5 [2,7] 518918400,
xm 14 5 [1,8] 518918400,
xp 14 5 [11] 742053312000,
xp 15 5 [5,5] 259459200,
xp 15 5 [4,6] 518918400,
xp 15 5 [3,7] 518918400,
xp 15 5 [2,8] 518918400,
xp 15 5 [1,9] 518918400,
xm 15 5 [12] 1038874636800,
xm 16 5 [5,6] 518918400,
xm 16 5 [4,7] 518918400,
xm 16 5 [3,8] 518918400,
xm 16 5 [2,9] 518918400,
xm 16 5 [1,10] 518918400,
xp 16 5 [13] 1416647232000,
xp 17 5 [6,6] 259459200,
xp 17 5 [5,7] 518918400,
xp 17 5 [4,8] 518918400,
xp 17 5 [3,9] 518918400,
xp 17 5 [2,10] 518918400,
xp 17 5 [1,11] 518918400,
xm 17 5 [14] 1888862976000,
xm 18 5 [6,7] 518918400,
xm 18 5 [5,8] 518918400,
xm 18 5 [4,9] 518918400,
xm 18 5 [3,10] 518918400,
xm 18 5 [2,11] 518918400,
xm 18 5 [1,12] 518918400,
xp 18 5 [15] 2470051584000,
xp 19 5 [7,7] 259459200,
xp 19 5 [6,8] 518918400,
xp 19 5 [5,9] 518918400,
xp 19 5 [4,10] 518918400,
xp 19 5 [3,11] 518918400,
xp 19 5 [2,12] 518918400,
xp 19 5 [1,13] 518918400,
xm 6 6 [3] 5189184000,
xm 7 6 [1,1] 518918400,
xp 7 6 [4] 36324288000,
xp 8 6 [1,2] 2075673600,
xm 8 6 [5] 145297152000,
xm 9 6 [2,2] 1556755200,
xm 9 6 [1,3] 3632428800,
xp 9 6 [6] 435891456000,
xp 10 6 [2,3] 4670265600,
xp 10 6 [1,4] 5708102400,
xm 10 6 [7] 1089728640000,
xm 11 6 [3,3] 3113510400,
xm 11 6 [2,4] 6745939200,
xm 11 6 [1,5] 8302694400,
xp 11 6 [8] 2397403008000,
xp 12 6 [3,4] 8302694400,
xp 12 6 [2,5] 9340531200,
xp 12 6 [1,6] 11416204800,
xm 12 6 [9] 4794806016000,
xm 13 6 [4,4] 5189184000,
xm 13 6 [3,5] 10897286400,
xm 13 6 [2,6] 12454041600,
xm 13 6 [1,7] 15048633600,
xp 13 6 [10] 8904639744000,
xp 14 6 [4,5] 12972960000,
xp 14 6 [3,6] 14010796800,
xp 14 6 [2,7] 16086470400,
xp 14 6 [1,8] 19199980800,
xm 14 6 [11] 15583119552000,
xm 15 6 [5,5] 7783776000,
xm 15 6 [4,6] 16086470400,
xm 15 6 [3,7] 17643225600,
xm 15 6 [2,8] 20237817600,
xm 15 6 [1,9] 23870246400,
xp 15 6 [12] 25971865920000,
xp 16 6 [5,6] 18681062400,
xp 16 6 [4,7] 19718899200,
xp 16 6 [3,8] 21794572800,
xp 16 6 [2,9] 24908083200,
xp 16 6 [1,10] 29059430400,
xm 16 6 [13] 41554985472000,
xm 17 6 [6,6] 10897286400,
xm 17 6 [5,7] 22313491200,
xm 17 6 [4,8] 23870246400,
xm 17 6 [3,9] 26464838400,
xm 17 6 [2,10] 30097267200,
xm 17 6 [1,11] 34767532800,
xp 17 6 [14] 64221341184000,
xp 18 6 [6,7] 25427001600,
xp 18 6 [5,8] 26464838400,
xp 18 6 [4,9] 28540512000,
xp 18 6 [3,10] 31654022400,
xp 18 6 [2,11] 35805369600,
xp 18 6 [1,12] 40994553600,
xm 18 6 [15] 96332011776000,
xm 19 6 [7,7] 14529715200,
xm 19 6 [6,8] 29578348800,
xm 19 6 [5,9] 31135104000,
xm 19 6 [4,10] 33729696000,
xm 19 6 [3,11] 37362124800,
xm 19 6 [2,12] 42032390400,
xm 19 6 [1,13] 47740492800,
xp 7 7 [1,1] 259459200,
xm 7 7 [4] 21794572800,
xm 8 7 [1,2] 2594592000,
xp 8 7 [5] 196151155200,
xp 9 7 [2,2] 3372969600,
xp 9 7 [1,3] 8302694400,
xm 9 7 [6] 980755776000,
xm 10 7 [2,3] 15567552000,
xm 10 7 [1,4] 20756736000,
xp 10 7 [7] 3596104512000,
xp 11 7 [3,3] 14529715200,
xp 11 7 [2,4] 32172940800,
xp 11 7 [1,5] 44108064000,
xm 11 7 [8] 10788313536000,
xm 12 7 [3,4] 51891840000,
xm 12 7 [2,5] 60713452800,
xm 12 7 [1,6] 83545862400,
xp 12 7 [9] 28049615193600,
xp 13 7 [4,4] 41513472000,
xp 13 7 [3,5] 88216128000,
xp 13 7 [2,6] 106378272000,
xp 13 7 [1,7] 145297152000,
xm 13 7 [10] 65449102118400,
xm 14 7 [4,5] 129729600000,
xm 14 7 [3,6] 143221478400,
xm 14 7 [2,7] 175394419200,
xm 14 7 [1,8] 236626790400,
xp 14 7 [11] 140248075968000,
xp 15 7 [5,5] 94702608000,
xp 15 7 [4,6] 197188992000,
xp 15 7 [3,7] 223134912000,
xp 15 7 [2,8] 275026752000,
xp 15 7 [1,9] 365837472000,
xm 15 7 [12] 280496151936000,
xm 16 7 [5,6] 272432160000,
xm 16 7 [4,7] 291632140800,
xm 16 7 [3,8] 335221286400,
xm 16 7 [2,9] 413577964800,
xm 16 7 [1,10] 542269728000,
xp 16 7 [13] 529826064768000,
xp 17 7 [6,6] 187070083200,
xp 17 7 [5,7] 385037452800,
xp 17 7 [4,8] 420323904000,
xp 17 7 [3,9] 487783296000,
xp 17 7 [2,10] 600388588800,
xp 17 7 [1,11] 776301926400,
xm 17 7 [14] 953686916582400,
xm 18 7 [6,7] 508540032000,
xm 18 7 [5,8] 534485952000,
xm 18 7 [4,9] 591566976000,
xm 18 7 [3,10] 690161472000,
xm 18 7 [2,11] 845836992000,
xm 18 7 [1,12] 1079350272000,
xp 18 7 [15] 1647277401369600,
xp 19 7 [7,7] 334183449600,
xp 19 7 [6,8] 682896614400,
xp 19 7 [5,9] 729080352000,
xp 19 7 [4,10] 814701888000,
xp 19 7 [3,11] 952734182400,
xp 19 7 [2,12] 1161339379200,
xp 19 7 [1,13] 1463868806400,
xp 8 8 [1,2] 1037836800,
xm 8 8 [5] 87178291200,
xm 9 8 [2,2] 3113510400,
xm 9 8 [1,3] 7783776000,
xp 9 8 [6] 958961203200,
xp 10 8 [2,3] 24389164800,
xp 10 8 [1,4] 33729696000,
xm 10 8 [7] 5753767219200,
xm 11 8 [3,3] 33729696000,
xm 11 8 [2,4] 75243168000,
xm 11 8 [1,5] 108972864000,
xp 11 8 [8] 24932991283200,
xp 12 8 [3,4] 166053888000,
xp 12 8 [2,5] 197188992000,
xp 12 8 [1,6] 290594304000,
xm 12 8 [9] 87265469491200,
xm 13 8 [4,4] 173837664000,
xm 13 8 [3,5] 371026656000,
xm 13 8 [2,6] 457686028800,
xm 13 8 [1,7] 675631756800,
xp 13 8 [10] 261796408473600,
xp 14 8 [4,5] 687566880000,
xp 14 8 [3,6] 765404640000,
xp 14 8 [2,7] 966226060800,
xp 14 8 [1,8] 1416647232000,
xm 14 8 [11] 698123755929600,
xm 15 8 [5,5] 617512896000,
xm 15 8 [4,6] 1289512224000,
xm 15 8 [3,7] 1477360684800,
xm 15 8 [2,8] 1889900812800,
xm 15 8 [1,9] 2739889152000,
xp 15 8 [12] 1695443407257600,
xp 16 8 [5,6] 2143132992000,
xp 16 8 [4,7] 2306592288000,
xp 16 8 [3,8] 2695781088000,
xp 16 8 [2,9] 3471564096000,
xp 16 8 [1,10] 4966049088000,
xm 16 8 [13] 3814747666329600,
xm 17 8 [6,6] 1743565824000,
xm 17 8 [5,7] 3596104512000,
xm 17 8 [4,8] 3956752800000,
xm 17 8 [3,9] 4688427744000,
xm 17 8 [2,10] 6050588544000,
xm 17 8 [1,11] 8533613088000,
xp 17 8 [14] 8053356184473600,
xp 18 8 [6,7] 5543086348800,
xp 18 8 [5,8] 5848210368000,
xp 18 8 [4,9] 6540966432000,
xp 18 8 [3,10] 7822694880000,
xp 18 8 [2,11] 10086216940800,
xp 18 8 [1,12] 14024807596800,
xm 18 8 [15] 16106712368947200,
xm 19 8 [7,7] 4206352550400,
xm 19 8 [6,8] 8608856256000,
xm 19 8 [5,9] 9241936704000,
xm 19 8 [4,10] 10463989536000,
xm 19 8 [3,11] 12588960384000,
xm 19 8 [2,12] 16183508140800,
xm 19 8 [1,13] 22194139968000,
xp 9 9 [2,2] 1037836800,
xp 9 9 [1,3] 2594592000,
xm 9 9 [6] 342486144000,
xm 10 9 [2,3] 18162144000,
xm 10 9 [1,4] 25427001600,
xp 10 9 [7] 4452319872000,
xp 11 9 [3,3] 41513472000,
xp 11 9 [2,4] 92886393600,
xp 11 9 [1,5] 138032294400,
xm 11 9 [8] 31166239104000,
xm 12 9 [3,4] 297859161600,
xm 12 9 [2,5] 355978022400,
xm 12 9 [1,6] 544864320000,
xp 12 9 [9] 155831195520000,
xp 13 9 [4,4] 422399577600,
xp 13 9 [3,5] 903436934400,
xp 13 9 [2,6] 1126052928000,
xp 13 9 [1,7] 1743565824000,
xm 13 9 [10] 623324782080000,
xm 14 9 [4,5] 2161295136000,
xm 14 9 [3,6] 2415565152000,
xm 14 9 [2,7] 3094829337600,
xm 14 9 [1,8] 4794806016000,
xp 14 9 [11] 2119304259072000,
xp 15 9 [5,5] 2426462438400,
xp 15 9 [4,6] 5074503033600,
xp 15 9 [3,7] 5848210368000,
xp 15 9 [2,8] 7628100480000,
xp 15 9 [1,9] 11747274739200,
xm 15 9 [12] 6357912777216000,
xm 16 9 [5,6] 10272508646400,
xm 16 9 [4,7] 11086172697600,
xm 16 9 [3,8] 13061176128000,
xm 16 9 [2,9] 17227053043200,
xm 16 9 [1,10] 26268687244800,
xp 16 9 [13] 17257191823872000,
xp 17 9 [6,6] 9989179200000,
xp 17 9 [5,7] 20624930726400,
xp 17 9 [4,8] 22782593433600,
xp 17 9 [3,9] 27275907859200,
xp 17 9 [2,10] 36200785420800,
xp 17 9 [1,11] 54540918432000,
xm 17 9 [14] 43142979559680000,
xm 18 9 [6,7] 37377692352000,
xm 18 9 [5,8] 39513560486400,
xm 18 9 [4,9] 44423047468800,
xm 18 9 [3,10] 53810281324800,
xm 18 9 [2,11] 71608144608000,
xm 18 9 [1,12] 106484650272000,
xp 18 9 [15] 100666952305920000,
xp 19 9 [7,7] 32931599500800,
xp 19 9 [6,8] 67454202816000,
xp 19 9 [5,9] 72619516569600,
xp 19 9 [4,10] 82757625350400,
xp 19 9 [3,11] 101090493504000,
xp 19 9 [2,12] 134534265465600,
xp 19 9 [1,13] 197386180992000,
xp 10 10 [2,3] 5189184000,
xp 10 10 [1,4] 7264857600,
xm 10 10 [7] 1335695961600,
xm 11 10 [3,3] 25945920000,
xm 11 10 [2,4] 58118860800,
xm 11 10 [1,5] 87178291200,
xp 11 10 [8] 20035439424000,
xp 12 10 [3,4] 303048345600,
xp 12 10 [2,5] 363242880000,
xp 12 10 [1,6] 566658892800,
xm 12 10 [9] 160283515392000,
xm 13 10 [4,4] 617512896000,
xm 13 10 [3,5] 1322204083200,
xm 13 10 [2,6] 1656387532800,
xm 13 10 [1,7] 2637143308800,
xp 13 10 [10] 908273253888000,
xp 14 10 [4,5] 4235411980800,
xp 14 10 [3,6] 4743952012800,
xp 14 10 [2,7] 6124274956800,
xp 14 10 [1,8] 9829352332800,
xm 14 10 [11] 4087229642496000,
xm 15 10 [5,5] 6087950668800,
xm 15 10 [4,6] 12742560230400,
xm 15 10 [3,7] 14733131212800,
xm 15 10 [2,8] 19418964364800,
xm 15 10 [1,9] 31166239104000,
xp 15 10 [12] 15531472641484800,
xp 16 10 [5,6] 31965373440000,
xp 16 10 [4,7] 34551662745600,
xp 16 10 [3,8] 40886618572800,
xp 16 10 [2,9] 54660788582400,
xp 16 10 [1,10] 87265469491200,
xm 16 10 [13] 51771575471616000,
xm 17 10 [6,6] 37617432652800,
xm 17 10 [5,7] 77719446604800,
xm 17 10 [4,8] 86044973414400,
xm 17 10 [3,9] 103602058560000,
xm 17 10 [2,10] 139802843980800,
xm 17 10 [1,11] 221280297638400,
xp 17 10 [14] 155314726414848000,
xp 18 10 [6,7] 167207962521600,
xp 18 10 [5,8] 176971931136000,
xp 18 10 [4,9] 199551108556800,
xp 18 10 [3,10] 243439151155200,
xp 18 10 [2,11] 330362134502400,
xp 18 10 [1,12] 517359569126400,
xm 18 10 [15] 427115497640832000,
xm 19 10 [7,7] 172307892556800,
xm 19 10 [6,8] 353115668505600,
xm 19 10 [5,9] 380794775961600,
xm 19 10 [4,10] 435562461734400,
xm 19 10 [3,11] 536652955238400,
xm 19 10 [2,12] 730328869670400,
xm 19 10 [1,13] 1130295604838400,
xp 11 11 [3,3] 6486480000,
xp 11 11 [2,4] 14529715200,
xp 11 11 [1,5] 21794572800,
xm 11 11 [8] 5194373184000,
xm 12 11 [3,4] 163459296000,
xm 12 11 [2,5] 196151155200,
xm 12 11 [1,6] 308237529600,
xp 12 11 [9] 88304344128000,
xp 13 11 [4,4] 535783248000,
xp 13 11 [3,5] 1147847500800,
xp 13 11 [2,6] 1441555315200,
xp 13 11 [1,7] 2328905779200,
xm 13 11 [10] 794739097152000,
xm 14 11 [4,5] 5230697472000,
xm 14 11 [3,6] 5865853593600,
xm 14 11 [2,7] 7603192396800,
xm 14 11 [1,8] 12466495641600,
xp 14 11 [11] 5033347615296000,
xp 15 11 [5,5] 9989179200000,
xp 15 11 [4,6] 20918638540800,
xp 15 11 [3,7] 24232451443200,
xp 15 11 [2,8] 32125200307200,
xp 15 11 [1,9] 52982606476800,
xm 15 11 [12] 25166738076480000,
xm 16 11 [5,6] 66672711705600,
xm 16 11 [4,7] 72136922457600,
xm 16 11 [3,8] 85587287385600,
xm 16 11 [2,9] 115315084684800,
xm 16 11 [1,10] 190114058534400,
xp 16 11 [13] 105700299921216000,
xp 17 11 [6,6] 96640249305600,
xp 17 11 [5,7] 199744146201600,
xp 17 11 [4,8] 221454654220800,
xp 17 11 [3,9] 267550175692800,
xp 17 11 [2,10] 364644997516800,
xp 17 11 [1,11] 598391790796800,
xm 17 11 [14] 387567766377792000,
xm 18 11 [6,7] 516923677670400,
xm 18 11 [5,8] 547523257881600,
xm 18 11 [4,9] 618529976064000,
xm 18 11 [3,10] 757784842214400,
xm 18 11 [2,11] 1040952386073600,
xm 18 11 [1,12] 1695443407257600,
xp 18 11 [15] 1273436946669888000]
def extB3_1 : PL := [
xp 19 11 [7,7] 629293381516800,
xp 19 11 [6,8] 1290045672115200,
xp 19 11 [5,9] 1392673201920000,
xp 19 11 [4,10] 1596670403328000,
xp 19 11 [3,11] 1977497871148800,
xp 19 11 [2,12] 2730162545510400,
xp 19 11 [1,13] 4405125281356800,
xp 12 12 [3,4] 36324288000,
xp 12 12 [2,5] 43589145600,
xp 12 12 [1,6] 68497228800,
xm 12 12 [9] 20183850086400,
xm 13 12 [4,4] 254270016000,
xm 13 12 [3,5] 544864320000,
xm 13 12 [2,6] 684972288000,
xm 13 12 [1,7] 1113079968000,
xp 13 12 [10] 383493151641600,
xp 14 12 [4,5] 3959347392000,
xp 14 12 [3,6] 4442979340800,
xp 14 12 [2,7] 5770891526400,
xp 14 12 [1,8] 9572487724800,
xm 14 12 [11] 3834931516416000,
xm 15 12 [5,5] 10679340672000,
xm 15 12 [4,6] 22370572224000,
xm 15 12 [3,7] 25943325408000,
xm 15 12 [2,8] 34505479008000,
xm 15 12 [1,9] 57880158336000,
xp 15 12 [12] 26844520614912000,
xp 16 12 [5,6] 94090284288000,
xp 16 12 [4,7] 101863163001600,
xp 16 12 [3,8] 121051727596800,
xp 16 12 [2,9] 163845371289600,
xp 16 12 [1,10] 276043832064000,
xm 16 12 [13] 147644863382016000,
xm 17 12 [6,6] 172307892556800,
xm 17 12 [5,7] 356233849171200,
xm 17 12 [4,8] 395314631712000,
xm 17 12 [3,9] 478624386240000,
xm 17 12 [2,10] 656271949132800,
xm 17 12 [1,11] 1105065792230400,
xp 17 12 [14] 679166371557273600,
xp 18 12 [6,7] 1129355843616000,
xp 18 12 [5,8] 1196810046432000,
xp 18 12 [4,9] 1353676484160000,
xp 18 12 [3,10] 1662941472192000,
xp 18 12 [2,11] 2301849373824000,
xp 18 12 [1,12] 3860161329024000,
xm 18 12 [15] 2716665486229094400,
xm 19 12 [7,7] 1646279521286400,
xm 19 12 [6,8] 3375594808185600,
xm 19 12 [5,9] 3646792461312000,
xm 19 12 [4,10] 4187406839616000,
xm 19 12 [3,11] 5203426234406400,
xm 19 12 [2,12] 7251048143539200,
xm 19 12 [1,13] 12080034276710400,
xp 13 13 [4,4] 50854003200,
xp 13 13 [3,5] 108972864000,
xp 13 13 [2,6] 136994457600,
xp 13 13 [1,7] 222615993600,
xm 13 13 [10] 78441781017600,
xm 14 13 [4,5] 1678182105600,
xm 14 13 [3,6] 1883673792000,
xm 14 13 [2,7] 2448775929600,
xm 14 13 [1,8] 4081293216000,
xp 14 13 [11] 1647277401369600,
xp 15 13 [5,5] 7170414451200,
xp 15 13 [4,6] 15022687680000,
xp 15 13 [3,7] 17432544729600,
xp 15 13 [2,8] 23226268665600,
xp 15 13 [1,9] 39328825536000,
xm 15 13 [12] 18120051415065600,
xm 16 13 [5,6] 88703911296000,
xm 16 13 [4,7] 96067363392000,
xm 16 13 [3,8] 114276210048000,
xm 16 13 [2,9] 155089142208000,
xm 16 13 [1,10] 264913032384000,
xp 16 13 [13] 138920394182169600,
xp 17 13 [6,6] 213259894848000,
xp 17 13 [5,7] 440974261728000,
xp 17 13 [4,8] 489641023872000,
xp 17 13 [3,9] 593642649600000,
xp 17 13 [2,10] 817000696512000,
xp 17 13 [1,11] 1400254599744000,
xm 17 13 [14] 833522365093017600,
xm 18 13 [6,7] 1757656015315200,
xm 18 13 [5,8] 1863267325920000,
xm 18 13 [4,9] 2109212334028800,
xm 18 13 [3,10] 2595702485376000,
xm 18 13 [2,11] 3610386184204800,
xm 18 13 [1,12] 6183827070220800,
xp 18 13 [15] 4167611825465088000,
xp 19 13 [7,7] 3125494301529600,
xp 19 13 [6,8] 6409599644448000,
xp 19 13 [5,9] 6928026628723200,
xp 19 13 [4,10] 7963419323059200,
xp 19 13 [3,11] 9917542514880000,
xp 19 13 [2,12] 13904149728268800,
xp 19 13 [1,13] 23728638757824000,
xp 14 14 [4,5] 305124019200,
xp 14 14 [3,6] 342486144000,
xp 14 14 [2,7] 445231987200,
xp 14 14 [1,8] 742053312000,
xm 14 14 [11] 305051370624000,
xm 15 14 [5,5] 2746116172800,
xm 15 14 [4,6] 5753767219200,
xm 15 14 [3,7] 6678479808000,
xm 15 14 [2,8] 8904639744000,
xm 15 14 [1,9] 15137887564800,
xp 15 14 [12] 7016181524352000,
xp 16 14 [5,6] 53527470796800,
xp 16 14 [4,7] 57982904179200,
xp 16 14 [3,8] 69010958016000,
xp 16 14 [2,9] 93795538636800,
xp 16 14 [1,10] 161470800691200,
xm 16 14 [13] 84194178292224000,
xm 17 14 [6,6] 179805225600000,
xm 17 14 [5,7] 371837206540800,
xm 17 14 [4,8] 413026873459200,
xm 17 14 [3,9] 501182806924800,
xm 17 14 [2,10] 691296865459200,
xm 17 14 [1,11] 1198416098880000,
xp 17 14 [14] 701618152435200000,
xp 18 14 [6,7] 1937101630464000,
xp 18 14 [5,8] 2053957902796800,
xp 18 14 [4,9] 2326337133120000,
xp 18 14 [3,10] 2866255122931200,
xp 18 14 [2,11] 3998925298368000,
xp 18 14 [1,12] 6950813373504000,
xm 18 14 [15] 4560517990828800000,
xm 19 14 [7,7] 4313886972595200,
xm 19 14 [6,8] 8847615801024000,
xm 19 14 [5,9] 9566551298304000,
xm 19 14 [4,10] 11004205384972800,
xm 19 14 [3,11] 13725018058752000,
xm 19 14 [2,12] 19318467513945600,
xm 19 14 [1,13] 33555650768640000,
xp 15 15 [5,5] 457686028800,
xp 15 15 [4,6] 958961203200,
xp 15 15 [3,7] 1113079968000,
xp 15 15 [2,8] 1484106624000,
xp 15 15 [1,9] 2522981260800,
xm 15 15 [12] 1187353796428800,
xm 16 15 [5,6] 18699743462400,
xm 16 15 [4,7] 20258055417600,
xm 16 15 [3,8] 24116732640000,
xm 16 15 [2,9] 32798756390400,
xm 16 15 [1,10] 56652397401600,
xp 16 15 [13] 29683844910720000,
xp 17 15 [6,6] 98533263628800,
xp 17 15 [5,7] 203779255680000,
xp 17 15 [4,8] 226400465491200,
xp 17 15 [3,9] 274856546764800,
xp 17 15 [2,10] 379593998784000,
xp 17 15 [1,11] 662397261926400,
xm 17 15 [14] 385889983839360000,
xm 18 15 [6,7] 1477279733529600,
xm 18 15 [5,8] 1566622952294400,
xm 18 15 [4,9] 1774991522304000,
xm 18 15 [3,10] 2188571562777600,
xm 18 15 [2,11] 3059229459686400,
xm 18 15 [1,12] 5368904122982400,
xp 18 15 [15] 3473009854554240000,
xp 19 15 [7,7] 4284398915596800,
xp 19 15 [6,8] 8787760639257600,
xp 19 15 [5,9] 9504070409433600,
xp 19 15 [4,10] 10937676932582400,
xp 19 15 [3,11] 13655750755046400,
xp 19 15 [2,12] 19270530869990400,
xp 19 15 [1,13] 33891207276326400,
xp 16 16 [5,6] 2876883609600,
xp 16 16 [4,7] 3116623910400,
xp 16 16 [3,8] 3710266560000,
xp 16 16 [2,9] 5045962521600,
xp 16 16 [1,10] 8715753446400,
xm 16 16 [13] 4626053752320000,
xm 17 16 [6,6] 31645719705600,
xm 17 16 [5,7] 65449102118400,
xm 17 16 [4,8] 72721224576000,
xm 17 16 [3,9] 88304344128000,
xm 17 16 [2,10] 122020548249600,
xm 17 16 [1,11] 213535959436800,
xp 17 16 [14] 124903451312640000,
xp 18 16 [6,7] 741516750374400,
xp 18 16 [5,8] 786428100057600,
xp 18 16 [4,9] 891206027712000,
xp 18 16 [3,10] 1099331743910400,
xp 18 16 [2,11] 1538330483289600,
xp 18 16 [1,12] 2714957198553600,
xm 18 16 [15] 1748648318376960000,
xm 19 16 [7,7] 2982609082252800,
xm 19 16 [6,8] 6117932736115200,
xm 19 16 [5,9] 6617631436416000,
xm 19 16 [4,10] 7618256597952000,
xm 19 16 [3,11] 9517602763468800,
xm 19 16 [2,12] 13452765444518400,
xm 19 16 [1,13] 23855017182796800,
xp 17 17 [6,6] 4520817100800,
xp 17 17 [5,7] 9349871731200,
xp 17 17 [4,8] 10388746368000,
xp 17 17 [3,9] 12614906304000,
xp 17 17 [2,10] 17431506892800,
xp 17 17 [1,11] 30505137062400,
xm 17 17 [14] 18041609634048000,
xm 18 17 [6,7] 220389833664000,
xm 18 17 [5,8] 233746793280000,
xm 18 17 [4,9] 264913032384000,
xm 18 17 [3,10] 326840754240000,
xm 18 17 [2,11] 457577055936000,
xm 18 17 [1,12] 809559406656000,
xp 18 17 [15] 523206679387392000,
xp 19 17 [7,7] 1381109624294400,
xp 19 17 [6,8] 2833011134553600,
xp 19 17 [5,9] 3064680178560000,
xp 19 17 [4,10] 3528733336128000,
xp 19 17 [3,11] 4410171243878400,
xp 19 17 [2,12] 6239473803763200,
xp 19 17 [1,13] 11117949184742400,
xp 18 18 [6,7] 29385311155200,
xp 18 18 [5,8] 31166239104000,
xp 18 18 [4,9] 35321737651200,
xp 18 18 [3,10] 43578767232000,
xp 18 18 [2,11] 61010274124800,
xp 18 18 [1,12] 107941254220800,
xm 18 18 [15] 70431668379072000,
xm 19 18 [7,7] 382009045017600,
xm 19 18 [6,8] 783608297472000,
xm 19 18 [5,9] 847721703628800,
xm 19 18 [4,10] 976164385996800,
xm 19 18 [3,11] 1220205482496000,
xm 19 18 [2,12] 1727060067532800,
xm 19 18 [1,13] 3084035834880000,
xp 19 19 [7,7] 47751130627200,
xp 19 19 [6,8] 97951037184000,
xp 19 19 [5,9] 105965212953600,
xp 19 19 [4,10] 122020548249600,
xp 19 19 [3,11] 152525685312000,
xp 19 19 [2,12] 215882508441600,
xp 19 19 [1,13] 385504479360000]
/-- row 3 -/
def extB3 : PL := extB3_0 ++ extB3_1
def extB4_0 : PL := [
xm 7 7 [1,1] 86486400,
xp 7 7 [4] 7264857600,
xp 8 7 [1,2] 1037836800,
xm 8 7 [5] 65383718400,
xm 9 7 [2,2] 1297296000,
xm 9 7 [1,3] 3632428800,
xp 9 7 [6] 326918592000,
xm 10 7 [1,1,1] 43243200,
xp 10 7 [2,3] 6227020800,
xp 10 7 [1,4] 9513504000,
xm 10 7 [7] 1198701504000,
xp 11 7 [1,1,2] 129729600,
xm 11 7 [3,3] 5708102400,
xm 11 7 [2,4] 13491878400,
xm 11 7 [1,5] 20756736000,
xp 11 7 [8] 3596104512000,
xm 12 7 [1,2,2] 129729600,
xm 12 7 [1,1,3] 129729600,
xp 12 7 [3,4] 20756736000,
xp 12 7 [2,5] 26464838400,
xp 12 7 [1,6] 39956716800,
xm 12 7 [9] 9349871731200,
xp 13 7 [2,2,2] 43243200,
xp 13 7 [1,2,3] 259459200,
xp 13 7 [1,1,4] 129729600,
xm 13 7 [4,4] 16432416000,
xm 13 7 [3,5] 36324288000,
xm 13 7 [2,6] 47740492800,
xm 13 7 [1,7] 70226956800,
xp 13 7 [10] 21816367372800,
xm 14 7 [2,2,3] 129729600,
xm 14 7 [1,3,3] 129729600,
xm 14 7 [1,2,4] 259459200,
xm 14 7 [1,1,5] 129729600,
xp 14 7 [4,5] 51891840000,
xp 14 7 [3,6] 60713452800,
xp 14 7 [2,7] 80432352000,
xp 14 7 [1,8] 115199884800,
xm 14 7 [11] 46749358656000,
xp 15 7 [2,3,3] 129729600,
xp 15 7 [2,2,4] 129729600,
xp 15 7 [1,3,4] 259459200,
xp 15 7 [1,2,5] 259459200,
xp 15 7 [1,1,6] 129729600,
xm 15 7 [5,5] 37621584000,
xm 15 7 [4,6] 80432352000,
xm 15 7 [3,7] 97037740800,
xm 15 7 [2,8] 128172844800,
xm 15 7 [1,9] 179026848000,
xp 15 7 [12] 93498717312000,
xm 16 7 [3,3,3] 43243200,
xm 16 7 [2,3,4] 259459200,
xm 16 7 [1,4,4] 129729600,
xm 16 7 [2,2,5] 129729600,
xm 16 7 [1,3,5] 259459200,
xm 16 7 [1,2,6] 259459200,
xm 16 7 [1,1,7] 129729600,
xp 16 7 [5,6] 108972864000,
xp 16 7 [4,7] 121599878400,
xp 16 7 [3,8] 148929580800,
xp 16 7 [2,9] 195113318400,
xp 16 7 [1,10] 266378112000,
xm 16 7 [13] 176608688256000,
xp 17 7 [3,3,4] 129729600,
xp 17 7 [2,4,4] 129729600,
xp 17 7 [2,3,5] 259459200,
xp 17 7 [1,4,5] 259459200,
xp 17 7 [2,2,6] 129729600,
xp 17 7 [1,3,6] 259459200,
xp 17 7 [1,2,7] 259459200,
xp 17 7 [1,1,8] 129729600,
xm 17 7 [6,6] 74464790400,
xm 17 7 [5,7] 156194438400,
xm 17 7 [4,8] 179026848000,
xm 17 7 [3,9] 220540320000,
xm 17 7 [2,10] 285924038400,
xm 17 7 [1,11] 382442860800,
xp 17 7 [14] 317895638860800,
xm 18 7 [3,4,4] 129729600,
xm 18 7 [3,3,5] 129729600,
xm 18 7 [2,4,5] 259459200,
xm 18 7 [1,5,5] 129729600,
xm 18 7 [2,3,6] 259459200,
xm 18 7 [1,4,6] 259459200,
xm 18 7 [2,2,7] 129729600,
xm 18 7 [1,3,7] 259459200,
xm 18 7 [1,2,8] 259459200,
xm 18 7 [1,1,9] 129729600,
xp 18 7 [6,7] 203416012800,
xp 18 7 [5,8] 220540320000,
xp 18 7 [4,9] 256864608000,
xp 18 7 [3,10] 316540224000,
xp 18 7 [2,11] 405794188800,
xp 18 7 [1,12] 532929196800,
xm 18 7 [15] 549092467123200,
xp 19 7 [4,4,4] 43243200,
xp 19 7 [3,4,5] 259459200,
xp 19 7 [2,5,5] 129729600,
xp 19 7 [3,3,6] 129729600,
xp 19 7 [2,4,6] 259459200,
xp 19 7 [1,5,6] 259459200,
xp 19 7 [2,3,7] 259459200,
xp 19 7 [1,4,7] 259459200,
xp 19 7 [2,2,8] 129729600,
xp 19 7 [1,3,8] 259459200,
xp 19 7 [1,2,9] 259459200,
xp 19 7 [1,1,10] 129729600,
xm 19 7 [7,7] 133189056000,
xm 19 7 [6,8] 276064588800,
xm 19 7 [5,9] 306161856000,
xm 19 7 [4,10] 359783424000,
xm 19 7 [3,11] 442118476800,
xm 19 7 [2,12] 560431872000,
xm 19 7 [1,13] 724064140800,
xm 8 8 [1,2] 1037836800,
xp 8 8 [5] 65383718400,
xp 9 8 [2,2] 3113510400,
xp 9 8 [1,3] 7783776000,
xm 9 8 [6] 719220902400,
xp 10 8 [1,1,1] 129729600,
xm 10 8 [2,3] 24389164800,
xm 10 8 [1,4] 33729696000,
xp 10 8 [7] 4315325414400,
xm 11 8 [1,1,2] 648648000,
xp 11 8 [3,3] 33729696000,
xp 11 8 [2,4] 75243168000,
xp 11 8 [1,5] 108972864000,
xm 11 8 [8] 18699743462400,
xp 12 8 [1,2,2] 908107200,
xp 12 8 [1,1,3] 1037836800,
xm 12 8 [3,4] 166053888000,
xm 12 8 [2,5] 197188992000,
xm 12 8 [1,6] 290594304000,
xp 12 8 [9] 65449102118400,
xm 13 8 [2,2,2] 389188800,
xm 13 8 [1,2,3] 2594592000,
xm 13 8 [1,1,4] 1556755200,
xp 13 8 [4,4] 173837664000,
xp 13 8 [3,5] 371026656000,
xp 13 8 [2,6] 457686028800,
xp 13 8 [1,7] 675631756800,
xm 13 8 [10] 196347306355200,
xp 14 8 [2,2,3] 1556755200,
xp 14 8 [1,3,3] 1686484800,
xp 14 8 [1,2,4] 3632428800,
xp 14 8 [1,1,5] 2205403200,
xm 14 8 [4,5] 687566880000,
xm 14 8 [3,6] 765404640000,
xm 14 8 [2,7] 966226060800,
xm 14 8 [1,8] 1416647232000,
xp 14 8 [11] 523592816947200,
xm 15 8 [2,3,3] 1945944000,
xm 15 8 [2,2,4] 2075673600,
xm 15 8 [1,3,4] 4410806400,
xm 15 8 [1,2,5] 4929724800,
xm 15 8 [1,1,6] 2983780800,
xp 15 8 [5,5] 617512896000,
xp 15 8 [4,6] 1289512224000,
xp 15 8 [3,7] 1477360684800,
xp 15 8 [2,8] 1889900812800,
xp 15 8 [1,9] 2739889152000,
xm 15 8 [12] 1271582555443200,
xp 16 8 [3,3,3] 778377600,
xp 16 8 [2,3,4] 4929724800,
xp 16 8 [1,4,4] 2724321600,
xp 16 8 [2,2,5] 2724321600,
xp 16 8 [1,3,5] 5708102400,
xp 16 8 [1,2,6] 6486480000,
xp 16 8 [1,1,7] 3891888000,
xm 16 8 [5,6] 2143132992000,
xm 16 8 [4,7] 2306592288000,
xm 16 8 [3,8] 2695781088000,
xm 16 8 [2,9] 3471564096000,
xm 16 8 [1,10] 4966049088000,
xp 16 8 [13] 2861060749747200,
xm 17 8 [3,3,4] 2854051200,
xm 17 8 [2,4,4] 2983780800,
xm 17 8 [2,3,5] 6227020800,
xm 17 8 [1,4,5] 6745939200,
xm 17 8 [2,2,6] 3502699200,
xm 17 8 [1,3,6] 7264857600,
xm 17 8 [1,2,7] 8302694400,
xm 17 8 [1,1,8] 4929724800,
xp 17 8 [6,6] 1743565824000,
xp 17 8 [5,7] 3596104512000,
xp 17 8 [4,8] 3956752800000,
xp 17 8 [3,9] 4688427744000,
xp 17 8 [2,10] 6050588544000,
xp 17 8 [1,11] 8533613088000,
xm 17 8 [14] 6040017138355200,
xp 18 8 [3,4,4] 3372969600,
xp 18 8 [3,3,5] 3502699200,
xp 18 8 [2,4,5] 7264857600,
xp 18 8 [1,5,5] 4021617600,
xp 18 8 [2,3,6] 7783776000,
xp 18 8 [1,4,6] 8302694400,
xp 18 8 [2,2,7] 4410806400,
xp 18 8 [1,3,7] 9081072000,
xp 18 8 [1,2,8] 10378368000,
xp 18 8 [1,1,9] 6097291200,
xm 18 8 [6,7] 5543086348800,
xm 18 8 [5,8] 5848210368000,
xm 18 8 [4,9] 6540966432000,
xm 18 8 [3,10] 7822694880000,
xm 18 8 [2,11] 10086216940800,
xm 18 8 [1,12] 14024807596800,
xp 18 8 [15] 12080034276710400,
xm 19 8 [4,4,4] 1297296000,
xm 19 8 [3,4,5] 8043235200,
xm 19 8 [2,5,5] 4281076800,
xm 19 8 [3,3,6] 4281076800,
xm 19 8 [2,4,6] 8821612800,
xm 19 8 [1,5,6] 9599990400,
xm 19 8 [2,3,7] 9599990400,
xm 19 8 [1,4,7] 10118908800,
xm 19 8 [2,2,8] 5448643200,
xm 19 8 [1,3,8] 11156745600,
xm 19 8 [1,2,9] 12713500800,
xm 19 8 [1,1,10] 7394587200,
xp 19 8 [7,7] 4206352550400,
xp 19 8 [6,8] 8608856256000,
xp 19 8 [5,9] 9241936704000,
xp 19 8 [4,10] 10463989536000,
xp 19 8 [3,11] 12588960384000,
xp 19 8 [2,12] 16183508140800,
xp 19 8 [1,13] 22194139968000,
xm 9 9 [2,2] 1868106240,
xm 9 9 [1,3] 4151347200,
xp 9 9 [6] 410983372800,
xm 10 9 [1,1,1] 129729600,
xp 10 9 [2,3] 31135104000,
xp 10 9 [1,4] 39956716800,
xm 10 9 [7] 5342783846400,
xp 11 9 [1,1,2] 1167566400,
xm 11 9 [3,3] 71610739200,
xm 11 9 [2,4] 154118764800,
xm 11 9 [1,5] 214313299200,
xp 11 9 [8] 37399486924800,
xm 12 9 [1,2,2] 2464862400,
xm 12 9 [1,1,3] 2983780800,
xp 12 9 [3,4] 506983276800,
xp 12 9 [2,5] 577556179200,
xp 12 9 [1,6] 839091052800,
xm 12 9 [9] 186997434624000,
xp 13 9 [2,2,2] 1427025600,
xp 13 9 [1,2,3] 10118908800,
xp 13 9 [1,1,4] 6616209600,
xm 13 9 [4,4] 721815494400,
xm 13 9 [3,5] 1511609299200,
xm 13 9 [2,6] 1798052256000,
xm 13 9 [1,7] 2669835168000,
xp 13 9 [10] 747989738496000,
xm 14 9 [2,2,3] 7654046400,
xm 14 9 [1,3,3] 8821612800,
xm 14 9 [1,2,4] 19459440000,
xm 14 9 [1,1,5] 13102689600,
xp 14 9 [4,5] 3668753088000,
xp 14 9 [3,6] 3977509536000,
xp 14 9 [2,7] 4884163764480,
xp 14 9 [1,8] 7312079174400,
xm 14 9 [11] 2543165110886400,
xp 15 9 [2,3,3] 12194582400,
xp 15 9 [2,2,4] 13362148800,
xp 15 9 [1,3,4] 30097267200,
xp 15 9 [1,2,5] 35026992000,
xp 15 9 [1,1,6] 23740516800,
xm 15 9 [5,5] 4130071545600,
xm 15 9 [4,6] 8521677964800,
xm 15 9 [3,7] 9498801312000,
xm 15 9 [2,8] 11932528608000,
xm 15 9 [1,9] 17860652409600,
xp 15 9 [12] 7629495332659200,
xm 16 9 [3,3,3] 5967561600,
xm 16 9 [2,3,4] 38918880000,
xm 16 9 [1,4,4] 23351328000,
xm 16 9 [2,2,5] 22443220800,
xm 16 9 [1,3,5] 49556707200,
xm 16 9 [1,2,6] 59416156800,
xm 16 9 [1,1,7] 40086446400,
xp 16 9 [5,6] 17413863667200,
xp 16 9 [4,7] 18401884300800,
xp 16 9 [3,8] 20974162809600,
xp 16 9 [2,9] 26765292153600,
xp 16 9 [1,10] 39848262854400,
xm 16 9 [13] 20708630188646400,
xp 17 9 [3,3,4] 26724297600,
xp 17 9 [2,4,4] 28799971200,
xp 17 9 [2,3,5] 60972912000,
xp 17 9 [1,4,5] 71351280000,
xp 17 9 [2,2,6] 36194558400,
xp 17 9 [1,3,6] 78616137600,
xp 17 9 [1,2,7] 95740444800,
xp 17 9 [1,1,8] 63956692800,
xm 17 9 [6,6] 16967074924800,
xm 17 9 [5,7] 34704224755200,
xm 17 9 [4,8] 37399486924800,
xm 17 9 [3,9] 43391437689600,
xm 17 9 [2,10] 55945111622400,
xm 17 9 [1,11] 82590533625600,
xp 17 9 [14] 51771575471616000,
xm 18 9 [3,4,4] 37621584000,
xm 18 9 [3,3,5] 39697257600,
xm 18 9 [2,4,5] 84843158400,
xm 18 9 [1,5,5] 51243192000,
xm 18 9 [2,3,6] 93145852800,
xm 18 9 [1,4,6] 106637731200,
xm 18 9 [2,2,7] 56172916800,
xm 18 9 [1,3,7] 120389068800,
xm 18 9 [1,2,8] 147632284800,
xm 18 9 [1,1,9] 97426929600,
xp 18 9 [6,7] 63313233984000,
xp 18 9 [5,8] 65906788147200,
xp 18 9 [4,9] 72196079155200,
xp 18 9 [3,10] 84942271814400,
xp 18 9 [2,11] 110194916832000,
xp 18 9 [1,12] 161025568704000,
xm 18 9 [15] 120800342767104000,
xp 19 9 [4,4,4] 16864848000,
xp 19 9 [3,4,5] 106378272000,
xp 19 9 [2,5,5] 59286427200,
xp 19 9 [3,3,6] 58118860800,
xp 19 9 [2,4,6] 123243120000,
xp 19 9 [1,5,6] 145556611200,
xp 19 9 [2,3,7] 138551212800,
xp 19 9 [1,4,7] 155675520000,
xp 19 9 [2,2,8] 84194510400,
xp 19 9 [1,3,8] 178507929600,
xp 19 9 [1,2,9] 219243024000,
xp 19 9 [1,1,10] 142832289600,
xm 19 9 [7,7] 55866028458240,
xm 19 9 [6,8] 113636902579200,
xm 19 9 [5,9] 120044506982400,
xm 19 9 [4,10] 133312212633600,
xm 19 9 [3,11] 158553960364800,
xm 19 9 [2,12] 206320502868480,
xm 19 9 [1,13] 298157020761600,
xp 10 10 [1,1,1] 43243200,
xm 10 10 [2,3] 12972960000,
xm 10 10 [1,4] 15740524800,
xp 10 10 [7] 2226159936000,
xm 11 10 [1,1,2] 908107200,
xp 11 10 [3,3] 64864800000,
xp 11 10 [2,4] 138032294400,
xp 11 10 [1,5] 185253868800,
xm 11 10 [8] 33392399040000,
xp 12 10 [1,2,2] 3243240000,
xp 12 10 [1,1,3] 4021617600,
xm 12 10 [3,4] 743091148800,
xm 12 10 [2,5] 831826195200,
xm 12 10 [1,6] 1187804217600,
xp 12 10 [9] 267139192320000,
xm 13 10 [2,2,2] 2724321600,
xm 13 10 [1,2,3] 19978358400,
xm 13 10 [1,1,4] 13621608000,
xp 13 10 [4,4] 1519566048000,
xp 13 10 [3,5] 3163845484800,
xp 13 10 [2,6] 3694180089600,
xp 13 10 [1,7] 5474070201600,
xm 13 10 [10] 1513788756480000,
xp 14 10 [2,2,3] 20108088000,
xp 14 10 [1,3,3] 24129705600,
xp 14 10 [1,2,4] 53708054400,
xp 14 10 [1,1,5] 38270232000,
xm 14 10 [4,5] 10323362649600,
xm 14 10 [3,6] 11086172697600,
xm 14 10 [2,7] 13392764985600,
xm 14 10 [1,8] 20258055417600,
xp 14 10 [11] 6812049404160000,
xm 15 10 [2,3,3] 41772931200,
xm 15 10 [2,2,4] 46313467200,
xm 15 10 [1,3,4] 108972864000,
xm 15 10 [1,2,5] 128951222400,
xm 15 10 [1,1,6] 93535041600,
xp 15 10 [5,5] 14882060793600,
xp 15 10 [4,6] 30595947782400,
xp 15 10 [3,7] 33716204121600,
xp 15 10 [2,8] 41834682489600,
xp 15 10 [1,9] 63890790163200,
xm 15 10 [12] 25885787735808000,
xp 16 10 [3,3,3] 25556731200,
xp 16 10 [2,3,4] 169167398400,
xp 16 10 [1,4,4] 107675568000,
xp 16 10 [2,2,5] 99502603200,
xp 16 10 [1,3,5] 229621392000,
xp 16 10 [1,2,6] 282032150400,
xp 16 10 [1,1,7] 205232227200,
xm 16 10 [5,6] 77690387174400,
xm 16 10 [4,7] 81596458944000,
xm 16 10 [3,8] 91907713497600,
xm 16 10 [2,9] 116393916038400,
xm 16 10 [1,10] 178167000211200,
xp 16 10 [13] 86285959119360000,
xm 17 10 [3,3,4] 140756616000,
xm 17 10 [2,4,4] 154378224000,
xm 17 10 [2,3,5] 328734806400,
xm 17 10 [1,4,5] 408648240000,
xm 17 10 [2,2,6] 200432232000,
xm 17 10 [1,3,6] 454313059200,
xm 17 10 [1,2,7] 570810240000,
xm 17 10 [1,1,8] 413318505600]
def extB4_1 : PL := [
xp 17 10 [6,6] 91635281337600,
xp 17 10 [5,7] 186964742764800,
xp 17 10 [4,8] 199921616294400,
xp 17 10 [3,9] 229397219251200,
xp 17 10 [2,10] 294966191520000,
xp 17 10 [1,11] 450352155052800,
xm 17 10 [14] 258857877358080000,
xp 18 10 [3,4,4] 238053816000,
xp 18 10 [3,3,5] 252972720000,
xp 18 10 [2,4,5] 551350800000,
xp 18 10 [1,5,5] 356107752000,
xp 18 10 [2,3,6] 611545334400,
xp 18 10 [1,4,6] 743350608000,
xp 18 10 [2,2,7] 381145564800,
xp 18 10 [1,3,7] 850247798400,
xp 18 10 [1,2,8] 1082463782400,
xp 18 10 [1,1,9] 776431656000,
xm 18 10 [6,7] 405738664531200,
xm 18 10 [5,8] 420537179462400,
xm 18 10 [4,9] 456694375737600,
xm 18 10 [3,10] 532240592083200,
xm 18 10 [2,11] 691890508108800,
xm 18 10 [1,12] 1050302257804800,
xp 18 10 [15] 711859162734720000,
xm 19 10 [4,4,4] 125621496000,
xm 19 10 [3,4,5] 799134336000,
xm 19 10 [2,5,5] 458594136000,
xm 19 10 [3,3,6] 441859017600,
xm 19 10 [2,4,6] 956626070400,
xm 19 10 [1,5,6] 1207782576000,
xm 19 10 [2,3,7] 1091025936000,
xm 19 10 [1,4,7] 1299112214400,
xm 19 10 [2,2,8] 688864176000,
xm 19 10 [1,3,8] 1515501187200,
xm 19 10 [1,2,9] 1942571030400,
xm 19 10 [1,1,10] 1377079704000,
xp 19 10 [7,7] 418862629785600,
xp 19 10 [6,8] 850456922515200,
xp 19 10 [5,9] 893337744499200,
xp 19 10 [4,10] 983327189644800,
xp 19 10 [3,11] 1160868201292800,
xp 19 10 [2,12] 1520393030956800,
xp 19 10 [1,13] 2290025991052800,
xp 11 11 [1,1,2] 259459200,
xm 11 11 [3,3] 21312720000,
xm 11 11 [2,4] 45664819200,
xm 11 11 [1,5] 59156697600,
xp 11 11 [8] 11130799680000,
xm 12 11 [1,2,2] 2075673600,
xm 12 11 [1,1,3] 2594592000,
xp 12 11 [3,4] 526702176000,
xp 12 11 [2,5] 588453465600,
xp 12 11 [1,6] 821966745600,
xm 12 11 [9] 189223594560000,
xp 13 11 [2,2,2] 2854051200,
xp 13 11 [1,2,3] 21275654400,
xp 13 11 [1,1,4] 14789174400,
xm 13 11 [4,4] 1729295568000,
xm 13 11 [3,5] 3603369369600,
xm 13 11 [2,6] 4178330956800,
xm 13 11 [1,7] 6130501977600,
xp 13 11 [10] 1703012351040000,
xm 14 11 [2,2,3] 30616185600,
xm 14 11 [1,3,3] 37621584000,
xm 14 11 [1,2,4] 84064780800,
xm 14 11 [1,1,5] 61751289600,
xp 14 11 [4,5] 16709172480000,
xp 14 11 [3,6] 17930706393600,
xp 14 11 [2,7] 21473881228800,
xp 14 11 [1,8] 32501935065600,
xm 14 11 [11] 10785744889920000,
xp 15 11 [2,3,3] 85880995200,
xp 15 11 [2,2,4] 95740444800,
xp 15 11 [1,3,4] 231956524800,
xp 15 11 [1,2,5] 276583507200,
xp 15 11 [1,1,6] 208864656000,
xm 15 11 [5,5] 31980940992000,
xm 15 11 [4,6] 65762528832000,
xm 15 11 [3,7] 72277030425600,
xm 15 11 [2,8] 88943651596800,
xm 15 11 [1,9] 137131452057600,
xp 15 11 [12] 53928724449600000,
xm 16 11 [3,3,3] 67459392000,
xm 16 11 [2,3,4] 449902252800,
xm 16 11 [1,4,4] 298118620800,
xm 16 11 [2,2,5] 267242976000,
xm 16 11 [1,3,5] 637231795200,
xm 16 11 [1,2,6] 791869478400,
xm 16 11 [1,1,7] 604799395200,
xp 16 11 [5,6] 212120350041600,
xp 16 11 [4,7] 222703171891200,
xp 16 11 [3,8] 249809393433600,
xp 16 11 [2,9] 314333782963200,
xp 16 11 [1,10] 489309953932800,
xm 16 11 [13] 226500642688320000,
xp 17 11 [3,3,4] 463653590400,
xp 17 11 [2,4,4] 513469756800,
xp 17 11 [2,3,5] 1096474579200,
xp 17 11 [1,4,5] 1424431008000,
xp 17 11 [2,2,6] 677966889600,
xp 17 11 [1,3,6] 1590484896000,
xp 17 11 [1,2,7] 2030527699200,
xp 17 11 [1,1,8] 1552863312000,
xm 17 11 [6,6] 308063173017600,
xm 17 11 [5,7] 628583501145600,
xm 17 11 [4,8] 671272842240000,
xm 17 11 [3,9] 766449741657600,
xm 17 11 [2,10] 981736531776000,
xm 17 11 [1,11] 1533378963916800,
xp 17 11 [14] 830502356523840000,
xm 18 11 [3,4,4] 953253100800,
xm 18 11 [3,3,5] 1016561145600,
xm 18 11 [2,4,5] 2241727488000,
xm 18 11 [1,5,5] 1521987667200,
xm 18 11 [2,3,6] 2499111014400,
xm 18 11 [1,4,6] 3182007628800,
xm 18 11 [2,2,7] 1586074089600,
xm 18 11 [1,3,7] 3662785526400,
xm 18 11 [1,2,8] 4759000646400,
xm 18 11 [1,1,9] 3621790972800,
xp 18 11 [6,7] 1640869796966400,
xp 18 11 [5,8] 1700347186137600,
xp 18 11 [4,9] 1842404211648000,
xp 18 11 [3,10] 2136350283724800,
xp 18 11 [2,11] 2774685744230400,
xp 18 11 [1,12] 4329435843532800,
xm 18 11 [15] 2728793457149760000,
xp 19 11 [4,4,4] 598572374400,
xp 19 11 [3,4,5] 3824428608000,
xp 19 11 [2,5,5] 2234203171200,
xp 19 11 [3,3,6] 2127565440000,
xp 19 11 [2,4,6] 4668708844800,
xp 19 11 [1,5,6] 6207820819200,
xp 19 11 [2,3,7] 5363281123200,
xp 19 11 [1,4,7] 6696382492800,
xp 19 11 [2,2,8] 3461964105600,
xp 19 11 [1,3,8] 7878478608000,
xp 19 11 [1,2,9] 10349308569600,
xp 19 11 [1,1,10] 7808684083200,
xm 19 11 [7,7] 2000810280268800,
xm 19 11 [6,8] 4062502142899200,
xm 19 11 [5,9] 4264217141184000,
xm 19 11 [4,10] 4679730671616000,
xm 19 11 [3,11] 5499282889900800,
xm 19 11 [2,12] 7218100976486400,
xm 19 11 [1,13] 11217174685516800,
xp 12 12 [1,2,2] 518918400,
xp 12 12 [1,1,3] 648648000,
xm 12 12 [3,4] 145297152000,
xm 12 12 [2,5] 163459296000,
xm 12 12 [1,6] 222615993600,
xp 12 12 [9] 52982606476800,
xm 13 12 [2,2,2] 1556755200,
xm 13 12 [1,2,3] 11675664000,
xm 13 12 [1,1,4] 8172964800,
xp 13 12 [4,4] 1017080064000,
xp 13 12 [3,5] 2124970848000,
xp 13 12 [2,6] 2465900236800,
xp 13 12 [1,7] 3561855897600,
xm 13 12 [10] 1006669523059200,
xp 14 12 [2,2,3] 27113486400,
xp 14 12 [1,3,3] 33729696000,
xp 14 12 [1,2,4] 75502627200,
xp 14 12 [1,1,5] 56302646400,
xm 14 12 [4,5] 15673930272000,
xm 14 12 [3,6] 16864329081600,
xm 14 12 [2,7] 20138185267200,
xm 14 12 [1,8] 30275775129600,
xp 14 12 [11] 10066695230592000,
xm 15 12 [2,3,3] 108972864000,
xm 15 12 [2,2,4] 121816094400,
xm 15 12 [1,3,4] 300453753600,
xm 15 12 [1,2,5] 359610451200,
xm 15 12 [1,1,6] 277880803200,
xp 15 12 [5,5] 42335957664000,
xp 15 12 [4,6] 87170507424000,
xp 15 12 [3,7] 95947493241600,
xp 15 12 [2,8] 117541244620800,
xp 15 12 [1,9] 181432034784000,
xm 15 12 [12] 70466866614144000,
xp 16 12 [3,3,3] 114162048000,
xp 16 12 [2,3,4] 764366803200,
xp 16 12 [1,4,4] 519956236800,
xp 16 12 [2,2,5] 456388732800,
xp 16 12 [1,3,5] 1112820508800,
xp 16 12 [1,2,6] 1391220230400,
xp 16 12 [1,1,7] 1095177283200,
xm 16 12 [5,6] 370632278016000,
xm 16 12 [4,7] 389763242668800,
xm 16 12 [3,8] 437234935737600,
xm 16 12 [2,9] 547635344256000,
xm 16 12 [1,10] 859297735296000,
xp 16 12 [13] 387567766377792000,
xm 17 12 [3,3,4] 1002550348800,
xm 17 12 [2,4,4] 1116193478400,
xm 17 12 [2,3,5] 2387284099200,
xm 17 12 [1,4,5] 3198353558400,
xm 17 12 [2,2,6] 1487479593600,
xm 17 12 [1,3,6] 3579758582400,
xm 17 12 [1,2,7] 4609552147200,
xm 17 12 [1,1,8] 3656039587200,
xp 17 12 [6,6] 679761828345600,
xp 17 12 [5,7] 1388149271308800,
xp 17 12 [4,8] 1484420569632000,
xp 17 12 [3,9] 1692994631328000,
xp 17 12 [2,10] 2160488217888000,
xp 17 12 [1,11] 3421162589644800,
xm 17 12 [14] 1782811725337843200,
xp 18 12 [3,4,4] 2548927180800,
xp 18 12 [3,3,5] 2723543222400,
xp 18 12 [2,4,5] 6047215574400,
xp 18 12 [1,5,5] 4257206553600,
xp 18 12 [2,3,6] 6760728374400,
xp 18 12 [1,4,6] 8908531632000,
xp 18 12 [2,2,7] 4335303772800,
xp 18 12 [1,3,7] 10290670790400,
xp 18 12 [1,2,8] 13523532422400,
xp 18 12 [1,1,9] 10728378460800,
xm 18 12 [6,7] 4436288406950400,
xm 18 12 [5,8] 4602406640832000,
xm 18 12 [4,9] 4990622468832000,
xm 18 12 [3,10] 5775771953952000,
xm 18 12 [2,11] 7485240168806400,
xm 18 12 [1,12] 11898379625932800,
xp 18 12 [15] 7131246901351372800,
xm 19 12 [4,4,4] 1930376448000,
xm 19 12 [3,4,5] 12363749798400,
xm 19 12 [2,5,5] 7301181888000,
xm 19 12 [3,3,6] 6901874179200,
xm 19 12 [2,4,6] 15272546889600,
xm 19 12 [1,5,6] 21118941043200,
xm 19 12 [2,3,7] 17616241843200,
xm 19 12 [1,4,7] 22818917721600,
xm 19 12 [2,2,8] 11520766857600,
xm 19 12 [1,3,8] 26973897350400,
xm 19 12 [1,2,9] 35943920812800,
xm 19 12 [1,1,10] 28383539184000,
xp 19 12 [7,7] 6475573891987200,
xp 19 12 [6,8] 13155680509171200,
xp 19 12 [5,9] 13824453202560000,
xp 19 12 [4,10] 15172393043808000,
xp 19 12 [3,11] 17788798816588800,
xp 19 12 [2,12] 23342622624921600,
xp 19 12 [1,13] 37102962421324800,
xp 13 13 [2,2,2] 345945600,
xp 13 13 [1,2,3] 2594592000,
xp 13 13 [1,1,4] 1816214400,
xm 13 13 [4,4] 242969126400,
xm 13 13 [3,5] 508540032000,
xm 13 13 [2,6] 593642649600,
xm 13 13 [1,7] 840993753600,
xp 13 13 [10] 244041096499200,
xm 14 13 [2,2,3] 12972960000,
xm 14 13 [1,3,3] 16216200000,
xm 14 13 [1,2,4] 36324288000,
xm 14 13 [1,1,5] 27243216000,
xp 14 13 [4,5] 7933224499200,
xp 14 13 [3,6] 8562153600000,
xp 14 13 [2,7] 10240335705600,
xp 14 13 [1,8] 15212092896000,
xm 14 13 [11] 5124863026483200,
xp 15 13 [2,3,3] 83675592000,
xp 15 13 [2,2,4] 93664771200,
xp 15 13 [1,3,4] 233253820800,
xp 15 13 [1,2,5] 279697017600,
xp 15 13 [1,1,6] 218724105600,
xm 15 13 [5,5] 33919620134400,
xm 15 13 [4,6] 69929443584000,
xm 15 13 [3,7] 77196376857600,
xm 15 13 [2,8] 94463386617600,
xm 15 13 [1,9] 145071422496000,
xp 15 13 [12] 56373493291315200,
xm 16 13 [3,3,3] 124324200000,
xm 16 13 [2,3,4] 834161328000,
xm 16 13 [1,4,4] 576648072000,
xm 16 13 [2,2,5] 499458960000,
xm 16 13 [1,3,5] 1235025792000,
xm 16 13 [1,2,6] 1548971424000,
xm 16 13 [1,1,7] 1241512272000,
xp 16 13 [5,6] 416930177664000,
xp 16 13 [4,7] 439295560704000,
xp 16 13 [3,8] 493836479136000,
xp 16 13 [2,9] 617017328928000,
xp 16 13 [1,10] 969245301024000,
xm 16 13 [13] 432196781900083200,
xp 17 13 [3,3,4] 1447652606400,
xp 17 13 [2,4,4] 1616560545600,
xp 17 13 [2,3,5] 3460666809600,
xp 17 13 [1,4,5] 4733054726400,
xp 17 13 [2,2,6] 2165705942400,
xp 17 13 [1,3,6] 5304902803200,
xp 17 13 [1,2,7] 6863733676800,
xp 17 13 [1,1,8] 5573961993600,
xm 17 13 [6,6] 1003458456000000,
xm 17 13 [5,7] 2050916003136000,
xm 17 13 [4,8] 2197705045536000,
xm 17 13 [3,9] 2509253274528000,
xm 17 13 [2,10] 3193426428192000,
xm 17 13 [1,11] 5090114693664000,
xp 17 13 [14] 2593180691400499200,
xm 18 13 [3,4,4] 4667022360000,
xm 18 13 [3,3,5] 4992643656000,
xm 18 13 [2,4,5] 11129761843200,
xm 18 13 [1,5,5] 8038564934400,
xm 18 13 [2,3,6] 12464419968000,
xm 18 13 [1,4,6] 16830599385600,
xm 18 13 [2,2,7] 8041418985600,
xm 18 13 [1,3,7] 19482791328000,
xm 18 13 [1,2,8] 25772082336000,
xm 18 13 [1,1,9] 21037211395200,
xp 18 13 [6,7] 8234839592179200,
xp 18 13 [5,8] 8554761607392000,
xp 18 13 [4,9] 9293698295481600,
xp 18 13 [3,10] 10757917890720000,
xp 18 13 [2,11] 13910457181420800,
xp 18 13 [1,12] 22362444405100800,
xm 18 13 [15] 12965903457002496000,
xp 19 13 [4,4,4] 4341401064000,
xp 19 13 [3,4,5] 27846977558400,
xp 19 13 [2,5,5] 16552978041600,
xp 19 13 [3,3,6] 15578060097600,
xp 19 13 [2,4,6] 34647662649600,
xp 19 13 [1,5,6] 49319042572800,
xp 19 13 [2,3,7] 40064132908800,
xp 19 13 [1,4,7] 53344292601600,
xp 19 13 [2,2,8] 26409573590400,
xp 19 13 [1,3,8] 63236952979200,
xp 19 13 [1,2,9] 84987936633600,
xp 19 13 [1,1,10] 69344882006400,
xm 19 13 [7,7] 14659133794905600,
xm 19 13 [6,8] 29799519605856000,
xm 19 13 [5,9] 31363573912070400,
xm 19 13 [4,10] 34471863992966400,
xm 19 13 [3,11] 40397011278624000,
xm 19 13 [2,12] 52940977285996800,
xm 19 13 [1,13] 85447067850144000,
xp 14 14 [2,2,3] 2594592000,
xp 14 14 [1,3,3] 3243240000,
xp 14 14 [1,2,4] 7264857600,
xp 14 14 [1,1,5] 5448643200,
xm 14 14 [4,5] 1678182105600,
xm 14 14 [3,6] 1815176563200,
xm 14 14 [2,7] 2181636737280,
xm 14 14 [1,8] 3190829241600,
xp 14 14 [11] 1098184934246400,
xm 15 14 [2,3,3] 35675640000,
xm 15 14 [2,2,4] 39956716800,
xm 15 14 [1,3,4] 99891792000,
xm 15 14 [1,2,5] 119870150400,
xm 15 14 [1,1,6] 94183689600,
xp 15 14 [5,5] 15103638950400,
xp 15 14 [4,6] 31166239104000,
xp 15 14 [3,7] 34505479008000,
xp 15 14 [2,8] 42297038784000,
xp 15 14 [1,9] 64336022150400,
xm 15 14 [12] 25258253487667200,
xp 16 14 [3,3,3] 84324240000,
xp 16 14 [2,3,4] 566399433600,
xp 16 14 [1,4,4] 395026632000,
xp 16 14 [2,2,5] 339632092800,
xp 16 14 [1,3,5] 846355910400,
xp 16 14 [1,2,6] 1063263801600,
xp 16 14 [1,1,7] 860496436800,
xm 16 14 [5,6] 292483166976000,
xm 16 14 [4,7] 308665637280000,
xm 16 14 [3,8] 347948797996800,
xm 16 14 [2,9] 434620624838400,
xm 16 14 [1,10] 679943449785600,
xp 16 14 [13] 303099041852006400,
xm 17 14 [3,3,4] 1384214832000,
xm 17 14 [2,4,4] 1548322776000,
xm 17 14 [2,3,5] 3316407494400,
xm 17 14 [1,4,5] 4595022432000,
xm 17 14 [2,2,6] 2080603324800,
xm 17 14 [1,3,6] 5154416467200,
xm 17 14 [1,2,7] 6687041961600,
xm 17 14 [1,1,8] 5509745841600,
xp 17 14 [6,6] 983174973580800,
xp 17 14 [5,7] 2010821772960000,
xp 17 14 [4,8] 2159004111264000,
xp 17 14 [3,9] 2470443886310400,
xp 17 14 [2,10] 3139850179065600,
xp 17 14 [1,11] 5009379293318400,
xm 17 14 [14] 2525825348766720000,
xp 18 14 [3,4,4] 5878048176000,
xp 18 14 [3,3,5] 6292793707200,
xp 18 14 [2,4,5] 14061131884800,
xp 18 14 [1,5,5] 10334259936000,
xp 18 14 [2,3,6] 15764222073600,
xp 18 14 [1,4,6] 21644605382400,
xp 18 14 [2,2,7] 10207254657600,
xp 18 14 [1,3,7] 25087888425600,
xp 18 14 [1,2,8] 33315339657600,
xp 18 14 [1,1,9] 27715691203200,
xm 18 14 [6,7] 10546175832192000,
xm 18 14 [5,8] 10968632490816000,
xm 18 14 [4,9] 11940676664716800,
xm 18 14 [3,10] 13842114071385600,
xm 18 14 [2,11] 17869014779616000,
xm 18 14 [1,12] 28881827983008000]
def extB4_2 : PL := [
xp 18 14 [15] 16417864766983680000,
xm 19 14 [4,4,4] 6892533648000,
xm 19 14 [3,4,5] 44252063856000,
xm 19 14 [2,5,5] 26411389804800,
xm 19 14 [3,3,6] 24788861697600,
xm 19 14 [2,4,6] 55305804153600,
xm 19 14 [1,5,6] 80381497996800,
xm 19 14 [2,3,7] 64053471081600,
xm 19 14 [1,4,7] 87000042729600,
xm 19 14 [2,2,8] 42429752164800,
xm 19 14 [1,3,8] 103319507491200,
xm 19 14 [1,2,9] 139580227987200,
xm 19 14 [1,1,10] 116539472649600,
xp 19 14 [7,7] 23505721376417280,
xp 19 14 [6,8] 47807452473580800,
xp 19 14 [5,9] 50390540052652800,
xp 19 14 [4,10] 55491340314009600,
xp 19 14 [3,11] 65080301622336000,
xp 19 14 [2,12] 85169035315203840,
xp 19 14 [1,13] 138752615928326400,
xp 15 15 [2,3,3] 6486480000,
xp 15 15 [2,2,4] 7264857600,
xp 15 15 [1,3,4] 18162144000,
xp 15 15 [1,2,5] 21794572800,
xp 15 15 [1,1,6] 17124307200,
xm 15 15 [5,5] 2870939635200,
xm 15 15 [4,6] 5928123801600,
xm 15 15 [3,7] 6577290720000,
xm 15 15 [2,8] 8095127040000,
xm 15 15 [1,9] 12156182438400,
xp 15 15 [12] 4857356439936000,
xm 16 15 [3,3,3] 32432400000,
xm 16 15 [2,3,4] 217945728000,
xm 16 15 [1,4,4] 152562009600,
xm 16 15 [2,2,5] 130767436800,
xm 16 15 [1,3,5] 326918592000,
xm 16 15 [1,2,6] 410983372800,
xm 16 15 [1,1,7] 333923990400,
xp 16 15 [5,6] 116513786188800,
xp 16 15 [4,7] 123106644460800,
xp 16 15 [3,8] 139134996000000,
xp 16 15 [2,9] 174085706995200,
xp 16 15 [1,10] 270188356838400,
xm 16 15 [13] 121433910998400000,
xp 17 15 [3,3,4] 841945104000,
xp 17 15 [2,4,4] 942615273600,
xp 17 15 [2,3,5] 2019630412800,
xp 17 15 [1,4,5] 2818764748800,
xp 17 15 [2,2,6] 1268755488000,
xp 17 15 [1,3,6] 3163326566400,
xp 17 15 [1,2,7] 4109833728000,
xp 17 15 [1,1,8] 3413445235200,
xm 17 15 [6,6] 614149266931200,
xm 17 15 [5,7] 1256718656793600,
xm 17 15 [4,8] 1351501697145600,
xm 17 15 [3,9] 1550297779430400,
xm 17 15 [2,10] 1970677726617600,
xm 17 15 [1,11] 3133313363980800,
xp 17 15 [14] 1578640842979200000,
xm 18 15 [3,4,4] 5010935529600,
xm 18 15 [3,3,5] 5366913552000,
xm 18 15 [2,4,5] 12008809612800,
xm 18 15 [1,5,5] 8924877561600,
xm 18 15 [2,3,6] 13472159500800,
xm 18 15 [1,4,6] 18696629952000,
xm 18 15 [2,2,7] 8741958825600,
xm 18 15 [1,3,7] 21687935068800,
xm 18 15 [1,2,8] 28865873836800,
xm 18 15 [1,1,9] 24302245968000,
xp 18 15 [6,7] 9167189621990400,
xp 18 15 [5,8] 9543102413644800,
xp 18 15 [4,9] 10408039754112000,
xp 18 15 [3,10] 12090355563686400,
xp 18 15 [2,11] 15596840792332800,
xp 18 15 [1,12] 25227748350604800,
xm 18 15 [15] 14207767586812800000,
xp 19 15 [4,4,4] 7698932841600,
xp 19 15 [3,4,5] 49459150540800,
xp 19 15 [2,5,5] 29593397433600,
xp 19 15 [3,3,6] 27729961459200,
xp 19 15 [2,4,6] 61985840716800,
xp 19 15 [1,5,6] 91397097792000,
xp 19 15 [2,3,7] 71863711920000,
xp 19 15 [1,4,7] 98965263196800,
xp 19 15 [2,2,8] 47748276576000,
xp 19 15 [1,3,8] 117663968822400,
xp 19 15 [1,2,9] 159467256748800,
xp 19 15 [1,1,10] 135239216112000,
xm 19 15 [7,7] 26602869656563200,
xm 19 15 [6,8] 54128085634022400,
xm 19 15 [5,9] 57121928261798400,
xm 19 15 [4,10] 63024301256716800,
xm 19 15 [3,11] 74029086792460800,
xm 19 15 [2,12] 96784084145548800,
xm 19 15 [1,13] 158382671627980800,
xp 16 16 [3,3,3] 5405400000,
xp 16 16 [2,3,4] 36324288000,
xp 16 16 [1,4,4] 25427001600,
xp 16 16 [2,2,5] 21794572800,
xp 16 16 [1,3,5] 54486432000,
xp 16 16 [1,2,6] 68497228800,
xp 16 16 [1,1,7] 55653998400,
xm 16 16 [5,6] 20138185267200,
xm 16 16 [4,7] 21296930054400,
xm 16 16 [3,8] 24116732640000,
xm 16 16 [2,9] 30275775129600,
xm 16 16 [1,10] 46484018380800,
xp 16 16 [13] 21202746364800000,
xm 17 16 [3,3,4] 295134840000,
xm 17 16 [2,4,4] 330551020800,
xm 17 16 [2,3,5] 708323616000,
xm 17 16 [1,4,5] 991653062400,
xm 17 16 [2,2,6] 445231987200,
xm 17 16 [1,3,6] 1113079968000,
xm 17 16 [1,2,7] 1447003958400,
xm 17 16 [1,1,8] 1205836632000,
xp 17 16 [6,6] 221520037939200,
xp 17 16 [5,7] 453468778963200,
xp 17 16 [4,8] 488271079296000,
xp 17 16 [3,9] 561363330528000,
xp 17 16 [2,10] 714691782604800,
xp 17 16 [1,11] 1128690071308800,
xm 17 16 [14] 572474151849600000,
xp 18 16 [3,4,4] 2763370209600,
xp 18 16 [3,3,5] 2960429472000,
xp 18 16 [2,4,5] 6629182560000,
xp 18 16 [1,5,5] 4958265312000,
xp 18 16 [2,3,6] 7439733100800,
xp 18 16 [1,4,6] 10388227449600,
xp 18 16 [2,2,7] 4833335707200,
xp 18 16 [1,3,7] 12055512268800,
xp 18 16 [1,2,8] 16065454204800,
xp 18 16 [1,1,9] 13616678275200,
xm 18 16 [6,7] 5167242573292800,
xm 18 16 [5,8] 5382928930579200,
xm 18 16 [4,9] 5879659417632000,
xm 18 16 [3,10] 6844962841516800,
xm 18 16 [2,11] 8833416117926400,
xm 18 16 [1,12] 14245899008140800,
xp 18 16 [15] 8014638125894400000,
xm 19 16 [4,4,4] 5922372456000,
xm 19 16 [3,4,5] 38060588966400,
xm 19 16 [2,5,5] 22808020435200,
xm 19 16 [3,3,6] 21350897568000,
xm 19 16 [2,4,6] 47781487353600,
xm 19 16 [1,5,6] 71115691046400,
xm 19 16 [2,3,7] 55431382406400,
xm 19 16 [1,4,7] 77025133785600,
xm 19 16 [2,2,8] 36898600939200,
xm 19 16 [1,3,8] 91643584032000,
xm 19 16 [1,2,9] 124442340422400,
xm 19 16 [1,1,10] 106595958268800,
xp 19 16 [7,7] 20792556418233600,
xp 19 16 [6,8] 42319077767366400,
xp 19 16 [5,9] 44702775621504000,
xp 19 16 [4,10] 49404369190176000,
xp 19 16 [3,11] 58140612302572800,
xp 19 16 [2,12] 75988296422438400,
xp 19 16 [1,13] 124420285698508800,
xp 17 17 [3,3,4] 45405360000,
xp 17 17 [2,4,4] 50854003200,
xp 17 17 [2,3,5] 108972864000,
xp 17 17 [1,4,5] 152562009600,
xp 17 17 [2,2,6] 68497228800,
xp 17 17 [1,3,6] 171243072000,
xp 17 17 [1,2,7] 222615993600,
xp 17 17 [1,1,8] 185513328000,
xm 17 17 [6,6] 35123271321600,
xm 17 17 [5,7] 71922090240000,
xm 17 17 [4,8] 77516030592000,
xm 17 17 [3,9] 89274721536000,
xm 17 17 [2,10] 113975237376000,
xm 17 17 [1,11] 178337724364800,
xp 17 17 [14] 91595864295936000,
xm 18 17 [3,4,4] 889945056000,
xm 18 17 [3,3,5] 953512560000,
xm 18 17 [2,4,5] 2135868134400,
xm 18 17 [1,5,5] 1601901100800,
xm 18 17 [2,3,6] 2397403008000,
xm 18 17 [1,4,6] 3356364211200,
xm 18 17 [2,2,7] 1558311955200,
xm 18 17 [1,3,7] 3895779888000,
xm 18 17 [1,2,8] 5194373184000,
xm 18 17 [1,1,9] 4415217206400,
xp 18 17 [6,7] 1704348047001600,
xp 18 17 [5,8] 1776475628928000,
xp 18 17 [4,9] 1942695570816000,
xp 18 17 [3,10] 2266095896064000,
xp 18 17 [2,11] 2928493157990400,
xp 18 17 [1,12] 4695444558604800,
xm 18 17 [15] 2656280064582144000,
xp 19 17 [4,4,4] 2987672688000,
xp 19 17 [3,4,5] 19204651065600,
xp 19 17 [2,5,5] 11518431724800,
xp 19 17 [3,3,6] 10776637872000,
xp 19 17 [2,4,6] 24132819110400,
xp 19 17 [1,5,6] 36113607129600,
xp 19 17 [2,3,7] 28006804425600,
xp 19 17 [1,4,7] 39120479798400,
xp 19 17 [2,2,8] 18662640796800,
xp 19 17 [1,3,8] 46563845328000,
xp 19 17 [1,2,9] 63297147513600,
xp 19 17 [1,1,10] 54530799523200,
xm 19 17 [7,7] 10682690809190400,
xm 19 17 [6,8] 21747801646771200,
xm 19 17 [5,9] 22990295712384000,
xm 19 17 [4,10] 25443119205504000,
xm 19 17 [3,11] 29999623362508800,
xm 19 17 [2,12] 39227259713241600,
xm 19 17 [1,13] 64063134380044800,
xp 18 18 [3,4,4] 127135008000,
xp 18 18 [3,3,5] 136216080000,
xp 18 18 [2,4,5] 305124019200,
xp 18 18 [1,5,5] 228843014400,
xp 18 18 [2,3,6] 342486144000,
xp 18 18 [1,4,6] 479480601600,
xp 18 18 [2,2,7] 222615993600,
xp 18 18 [1,3,7] 556539984000,
xp 18 18 [1,2,8] 742053312000,
xp 18 18 [1,1,9] 630745315200,
xm 18 18 [6,7] 249775144819200,
xm 18 18 [5,8] 260460712512000,
xm 18 18 [4,9] 285096882470400,
xm 18 18 [3,10] 333066292416000,
xm 18 18 [2,11] 431429795596800,
xm 18 18 [1,12] 686197973260800,
xp 18 18 [15] 392405009540544000,
xm 19 18 [4,4,4] 889945056000,
xm 19 18 [3,4,5] 5721075360000,
xm 19 18 [2,5,5] 3432645216000,
xm 19 18 [3,3,6] 3210807600000,
xm 19 18 [2,4,6] 7192209024000,
xm 19 18 [1,5,6] 10788313536000,
xm 19 18 [2,3,7] 8348099760000,
xm 19 18 [1,4,7] 11687339664000,
xm 19 18 [2,2,8] 5565399840000,
xm 19 18 [1,3,8] 13913499600000,
xm 19 18 [1,2,9] 18922359456000,
xm 19 18 [1,1,10] 16342037712000,
xp 19 18 [7,7] 3247076882649600,
xp 19 18 [6,8] 6611695009920000,
xp 19 18 [5,9] 6993704054937600,
xp 19 18 [4,10] 7748304813849600,
xp 19 18 [3,11] 9151541118720000,
xp 19 18 [2,12] 11981479218508800,
xp 19 18 [1,13] 19467976207680000,
xp 19 19 [4,4,4] 118659340800,
xp 19 19 [3,4,5] 762810048000,
xp 19 19 [2,5,5] 457686028800,
xp 19 19 [3,3,6] 428107680000,
xp 19 19 [2,4,6] 958961203200,
xp 19 19 [1,5,6] 1438441804800,
xp 19 19 [2,3,7] 1113079968000,
xp 19 19 [1,4,7] 1558311955200,
xp 19 19 [2,2,8] 742053312000,
xp 19 19 [1,3,8] 1855133280000,
xp 19 19 [1,2,9] 2522981260800,
xp 19 19 [1,1,10] 2178938361600,
xm 19 19 [7,7] 442493810478720,
xm 19 19 [6,8] 901149542092800,
xm 19 19 [5,9] 953686916582400,
xm 19 19 [4,10] 1057511418163200,
xm 19 19 [3,11] 1250710619558400,
xm 19 19 [2,12] 1640707064156160,
xm 19 19 [1,13] 2647130758272000]
/-- row 4 -/
def extB4 : PL := extB4_0 ++ extB4_1 ++ extB4_2
def extB5_0 : PL := [
xp 9 9 [2,2] 467026560,
xp 9 9 [1,3] 1037836800,
xm 9 9 [6] 102745843200,
xp 10 9 [1,1,1] 43243200,
xm 10 9 [2,3] 7783776000,
xm 10 9 [1,4] 10897286400,
xp 10 9 [7] 1335695961600,
xm 11 9 [1,1,2] 432432000,
xp 11 9 [3,3] 17902684800,
xp 11 9 [2,4] 39437798400,
xp 11 9 [1,5] 61751289600,
xm 11 9 [8] 9349871731200,
xp 12 9 [1,2,2] 908107200,
xp 12 9 [1,1,3] 1210809600,
xm 12 9 [3,4] 127653926400,
xm 12 9 [2,5] 152562009600,
xm 12 9 [1,6] 250637587200,
xp 12 9 [9] 46749358656000,
xp 13 9 [1,1,1,1] 5405400,
xm 13 9 [2,2,2] 518918400,
xm 13 9 [1,2,3] 3891888000,
xm 13 9 [1,1,4] 2854051200,
xp 13 9 [4,4] 181361980800,
xp 13 9 [3,5] 386075289600,
xp 13 9 [2,6] 490377888000,
xp 13 9 [1,7] 817296480000,
xm 13 9 [10] 186997434624000,
xm 14 9 [1,1,1,2] 21621600,
xp 14 9 [2,2,3] 2854051200,
xp 14 9 [1,3,3] 3372969600,
xp 14 9 [1,2,4] 7870262400,
xp 14 9 [1,1,5] 5881075200,
xm 14 9 [4,5] 926269344000,
xm 14 9 [3,6] 1035242208000,
xm 14 9 [2,7] 1370878629120,
xm 14 9 [1,8] 2277532857600,
xp 14 9 [11] 635791277721600,
xp 15 9 [1,1,2,2] 32432400,
xp 15 9 [1,1,1,3] 21621600,
xm 15 9 [2,3,3] 4540536000,
xm 15 9 [2,2,4] 5189184000,
xm 15 9 [1,3,4] 11762150400,
xm 15 9 [1,2,5] 14789174400,
xm 15 9 [1,1,6] 10940529600,
xp 15 9 [5,5] 1040690851200,
xp 15 9 [4,6] 2172192422400,
xp 15 9 [3,7] 2524538016000,
xp 15 9 [2,8] 3432645216000,
xp 15 9 [1,9] 5633897068800,
xm 15 9 [12] 1907373833164800,
xm 16 9 [1,2,2,2] 21621600,
xm 16 9 [1,1,2,3] 64864800,
xm 16 9 [1,1,1,4] 21621600,
xp 16 9 [3,3,3] 2205403200,
xp 16 9 [2,3,4] 14789174400,
xp 16 9 [1,4,4] 9081072000,
xp 16 9 [2,2,5] 9081072000,
xp 16 9 [1,3,5] 19978358400,
xp 16 9 [1,2,6] 25945920000,
xp 16 9 [1,1,7] 18810792000,
xm 16 9 [5,6] 4402503705600,
xm 16 9 [4,7] 4751216870400,
xm 16 9 [3,8] 5693053766400,
xm 16 9 [2,9] 7860057004800,
xm 16 9 [1,10] 12689111635200,
xp 16 9 [13] 5177157547161600,
xp 17 9 [2,2,2,2] 5405400,
xp 17 9 [1,2,2,3] 64864800,
xp 17 9 [1,1,3,3] 32432400,
xp 17 9 [1,1,2,4] 64864800,
xp 17 9 [1,1,1,5] 21621600,
xm 17 9 [3,3,4] 9989179200,
xm 17 9 [2,4,4] 10940529600,
xm 17 9 [2,3,5] 23870246400,
xm 17 9 [1,4,5] 28108080000,
xm 17 9 [2,2,6] 15178363200,
xm 17 9 [1,3,6] 32691859200,
xm 17 9 [1,2,7] 42897254400,
xm 17 9 [1,1,8] 30399969600,
xp 17 9 [6,6] 4282633555200,
xp 17 9 [5,7] 8834066841600,
xp 17 9 [4,8] 9800292902400,
xp 17 9 [3,9] 12016593388800,
xp 17 9 [2,10] 16713323827200,
xp 17 9 [1,11] 26491303238400,
xm 17 9 [14] 12942893867904000,
xm 18 9 [2,2,2,3] 21621600,
xm 18 9 [1,2,3,3] 64864800,
xm 18 9 [1,2,2,4] 64864800,
xm 18 9 [1,1,3,4] 64864800,
xm 18 9 [1,1,2,5] 64864800,
xm 18 9 [1,1,1,6] 21621600,
xp 18 9 [3,4,4] 14054040000,
xp 18 9 [3,3,5] 15178363200,
xp 18 9 [2,4,5] 32691859200,
xp 18 9 [1,5,5] 20108088000,
xp 18 9 [2,3,6] 37621584000,
xp 18 9 [1,4,6] 42897254400,
xp 18 9 [2,2,7] 24259435200,
xp 18 9 [1,3,7] 51459408000,
xp 18 9 [1,2,8] 67459392000,
xp 18 9 [1,1,9] 46745899200,
xm 18 9 [6,7] 16019011008000,
xm 18 9 [5,8] 16934383065600,
xm 18 9 [4,9] 19218661862400,
xm 18 9 [3,10] 23962613875200,
xm 18 9 [2,11] 33392399040000,
xm 18 9 [1,12] 51943731840000,
xp 18 9 [15] 30200085691776000,
xp 19 9 [2,2,3,3] 32432400,
xp 19 9 [1,3,3,3] 21621600,
xp 19 9 [2,2,2,4] 21621600,
xp 19 9 [1,2,3,4] 129729600,
xp 19 9 [1,1,4,4] 32432400,
xp 19 9 [1,2,2,5] 64864800,
xp 19 9 [1,1,3,5] 64864800,
xp 19 9 [1,1,2,6] 64864800,
xp 19 9 [1,1,1,7] 21621600,
xm 19 9 [4,4,4] 6270264000,
xm 19 9 [3,4,5] 40216176000,
xm 19 9 [2,5,5] 22832409600,
xm 19 9 [3,3,6] 22832409600,
xm 19 9 [2,4,6] 48518870400,
xm 19 9 [1,5,6] 57599942400,
xm 19 9 [2,3,7] 57599942400,
xm 19 9 [1,4,7] 64086422400,
xm 19 9 [2,2,8] 37232395200,
xm 19 9 [1,3,8] 78097219200,
xm 19 9 [1,2,9] 101708006400,
xm 19 9 [1,1,10] 69016147200,
xp 19 9 [7,7] 14116344802560,
xp 19 9 [6,8] 28899603532800,
xp 19 9 [5,9] 31188033676800,
xp 19 9 [4,10] 36056007187200,
xp 19 9 [3,11] 45482159923200,
xp 19 9 [2,12] 63267465381120,
xp 19 9 [1,13] 96615341222400,
xm 10 10 [1,1,1] 43243200,
xp 10 10 [2,3] 7783776000,
xp 10 10 [1,4] 10897286400,
xm 10 10 [7] 1335695961600,
xp 11 10 [1,1,2] 908107200,
xm 11 10 [3,3] 38918880000,
xm 11 10 [2,4] 87178291200,
xm 11 10 [1,5] 130767436800,
xp 11 10 [8] 20035439424000,
xm 12 10 [1,2,2] 3243240000,
xm 12 10 [1,1,3] 4021617600,
xp 12 10 [3,4] 454572518400,
xp 12 10 [2,5] 544864320000,
xp 12 10 [1,6] 849988339200,
xm 12 10 [9] 160283515392000,
xm 13 10 [1,1,1,1] 21621600,
xp 13 10 [2,2,2] 2724321600,
xp 13 10 [1,2,3] 19978358400,
xp 13 10 [1,1,4] 13621608000,
xm 13 10 [4,4] 926269344000,
xm 13 10 [3,5] 1983306124800,
xm 13 10 [2,6] 2484581299200,
xm 13 10 [1,7] 3955714963200,
xp 13 10 [10] 908273253888000,
xp 14 10 [1,1,1,2] 129729600,
xm 14 10 [2,2,3] 20108088000,
xm 14 10 [1,3,3] 24129705600,
xm 14 10 [1,2,4] 53708054400,
xm 14 10 [1,1,5] 38270232000,
xp 14 10 [4,5] 6353117971200,
xp 14 10 [3,6] 7115928019200,
xp 14 10 [2,7] 9186412435200,
xp 14 10 [1,8] 14744028499200,
xm 14 10 [11] 4087229642496000,
xm 15 10 [1,1,2,2] 259459200,
xm 15 10 [1,1,1,3] 194594400,
xp 15 10 [2,3,3] 41772931200,
xp 15 10 [2,2,4] 46313467200,
xp 15 10 [1,3,4] 108972864000,
xp 15 10 [1,2,5] 128951222400,
xp 15 10 [1,1,6] 93535041600,
xm 15 10 [5,5] 9131926003200,
xm 15 10 [4,6] 19113840345600,
xm 15 10 [3,7] 22099696819200,
xm 15 10 [2,8] 29128446547200,
xm 15 10 [1,9] 46749358656000,
xp 15 10 [12] 15531472641484800,
xp 16 10 [1,2,2,2] 216216000,
xp 16 10 [1,1,2,3] 713512800,
xp 16 10 [1,1,1,4] 281080800,
xm 16 10 [3,3,3] 25556731200,
xm 16 10 [2,3,4] 169167398400,
xm 16 10 [1,4,4] 107675568000,
xm 16 10 [2,2,5] 99502603200,
xm 16 10 [1,3,5] 229621392000,
xm 16 10 [1,2,6] 282032150400,
xm 16 10 [1,1,7] 205232227200,
xp 16 10 [5,6] 47948060160000,
xp 16 10 [4,7] 51827494118400,
xp 16 10 [3,8] 61329927859200,
xp 16 10 [2,9] 81991182873600,
xp 16 10 [1,10] 130898204236800,
xm 16 10 [13] 51771575471616000,
xm 17 10 [2,2,2,2] 64864800,
xm 17 10 [1,2,2,3] 843242400,
xm 17 10 [1,1,3,3] 454053600,
xm 17 10 [1,1,2,4] 972972000,
xm 17 10 [1,1,1,5] 389188800,
xp 17 10 [3,3,4] 140756616000,
xp 17 10 [2,4,4] 154378224000,
xp 17 10 [2,3,5] 328734806400,
xp 17 10 [1,4,5] 408648240000,
xp 17 10 [2,2,6] 200432232000,
xp 17 10 [1,3,6] 454313059200,
xp 17 10 [1,2,7] 570810240000,
xp 17 10 [1,1,8] 413318505600,
xm 17 10 [6,6] 56426148979200,
xm 17 10 [5,7] 116579169907200,
xm 17 10 [4,8] 129067460121600,
xm 17 10 [3,9] 155403087840000,
xm 17 10 [2,10] 209704265971200,
xm 17 10 [1,11] 331920446457600,
xp 17 10 [14] 155314726414848000,
xp 18 10 [2,2,2,3] 324324000,
xp 18 10 [1,2,3,3] 1037836800,
xp 18 10 [1,2,2,4] 1102701600,
xp 18 10 [1,1,3,4] 1167566400,
xp 18 10 [1,1,2,5] 1297296000,
xp 18 10 [1,1,1,6] 518918400,
xm 18 10 [3,4,4] 238053816000,
xm 18 10 [3,3,5] 252972720000,
xm 18 10 [2,4,5] 551350800000,
xm 18 10 [1,5,5] 356107752000,
xm 18 10 [2,3,6] 611545334400,
xm 18 10 [1,4,6] 743350608000,
xm 18 10 [2,2,7] 381145564800,
xm 18 10 [1,3,7] 850247798400,
xm 18 10 [1,2,8] 1082463782400,
xm 18 10 [1,1,9] 776431656000,
xp 18 10 [6,7] 250811943782400,
xp 18 10 [5,8] 265457896704000,
xp 18 10 [4,9] 299326662835200,
xp 18 10 [3,10] 365158726732800,
xp 18 10 [2,11] 495543201753600,
xp 18 10 [1,12] 776039353689600,
xm 18 10 [15] 427115497640832000,
xm 19 10 [2,2,3,3] 583783200,
xm 19 10 [1,3,3,3] 410810400,
xm 19 10 [2,2,2,4] 410810400,
xm 19 10 [1,2,3,4] 2594592000,
xm 19 10 [1,1,4,4] 713512800,
xm 19 10 [1,2,2,5] 1427025600,
xm 19 10 [1,1,3,5] 1491890400,
xm 19 10 [1,1,2,6] 1686484800,
xm 19 10 [1,1,1,7] 670269600,
xp 19 10 [4,4,4] 125621496000,
xp 19 10 [3,4,5] 799134336000,
xp 19 10 [2,5,5] 458594136000,
xp 19 10 [3,3,6] 441859017600,
xp 19 10 [2,4,6] 956626070400,
xp 19 10 [1,5,6] 1207782576000,
xp 19 10 [2,3,7] 1091025936000,
xp 19 10 [1,4,7] 1299112214400,
xp 19 10 [2,2,8] 688864176000,
xp 19 10 [1,3,8] 1515501187200,
xp 19 10 [1,2,9] 1942571030400,
xp 19 10 [1,1,10] 1377079704000,
xm 19 10 [7,7] 258461838835200,
xm 19 10 [6,8] 529673502758400,
xm 19 10 [5,9] 571192163942400,
xm 19 10 [4,10] 653343692601600,
xm 19 10 [3,11] 804979432857600,
xm 19 10 [2,12] 1095493304505600,
xm 19 10 [1,13] 1695443407257600,
xm 11 11 [1,1,2] 475675200,
xp 11 11 [3,3] 21312720000,
xp 11 11 [2,4] 49297248000,
xp 11 11 [1,5] 70053984000,
xm 11 11 [8] 11130799680000,
xp 12 11 [1,2,2] 3788104320,
xp 12 11 [1,1,3] 4454049600,
xm 12 11 [3,4] 544864320000,
xm 12 11 [2,5] 653837184000,
xm 12 11 [1,6] 976085510400,
xp 12 11 [9] 189223594560000,
xp 13 11 [1,1,1,1] 32432400,
xm 13 11 [2,2,2] 5215129920,
xm 13 11 [1,2,3] 37621584000,
xm 13 11 [1,1,4] 24389164800,
xp 13 11 [4,4] 1783782000000,
xp 13 11 [3,5] 3832212384000,
xp 13 11 [2,6] 4735649318400,
xp 13 11 [1,7] 7294954867200,
xm 13 11 [10] 1703012351040000,
xm 14 11 [1,1,1,2] 302702400,
xp 14 11 [2,2,3] 55031296320,
xp 14 11 [1,3,3] 66421555200,
xp 14 11 [1,2,4] 143913369600,
xp 14 11 [1,1,5] 99286387200,
xm 14 11 [4,5] 17435658240000,
xm 14 11 [3,6] 19501472390400,
xm 14 11 [2,7] 24676126675200,
xm 14 11 [1,8] 38735182886400,
xp 14 11 [11] 10785744889920000,
xp 15 11 [1,1,2,2] 843242400,
xp 15 11 [1,1,1,3] 670269600,
xm 15 11 [2,3,3] 154118764800,
xm 15 11 [2,2,4] 168025777920,
xm 15 11 [1,3,4] 403286083200,
xm 15 11 [1,2,5] 461058998400,
xm 15 11 [1,1,6] 330248318400,
xp 15 11 [5,5] 33288615360000,
xp 15 11 [4,6] 69701638406400,
xp 15 11 [3,7] 80034341587200,
xp 15 11 [2,8] 103208199494400,
xp 15 11 [1,9] 163622755296000,
xm 15 11 [12] 53928724449600000,
xm 16 11 [1,2,2,2] 908107200,
xm 16 11 [1,1,2,3] 3178375200,
xm 16 11 [1,1,1,4] 1362160800,
xp 16 11 [3,3,3] 121426905600,
xp 16 11 [2,3,4] 797318121600,
xp 16 11 [1,4,4] 518140022400,
xp 16 11 [2,2,5] 457841704320,
xp 16 11 [1,3,5] 1087134048000,
xp 16 11 [1,2,6] 1293144652800,
xp 16 11 [1,1,7] 945339595200,
xm 16 11 [5,6] 222190999430400,
xm 16 11 [4,7] 239788560211200,
xm 16 11 [3,8] 280616022086400,
xm 16 11 [2,9] 367316389440000,
xm 16 11 [1,10] 584366983200000,
xp 16 11 [13] 226500642688320000,
xp 17 11 [2,2,2,2] 335134800,
xp 17 11 [1,2,2,3] 4605400800,
xp 17 11 [1,1,3,3] 2627024400,
xp 17 11 [1,1,2,4] 5772967200,
xp 17 11 [1,1,1,5] 2551348800,
xm 17 11 [3,3,4] 828842414400,
xm 17 11 [2,4,4] 908193686400,
xm 17 11 [2,3,5] 1910138630400,
xm 17 11 [1,4,5] 2454051600000,
xm 17 11 [2,2,6] 1136976160320,
xm 17 11 [1,3,6] 2664645984000,
xm 17 11 [1,2,7] 3264221600640,
xm 17 11 [1,1,8] 2407392187200,
xp 17 11 [6,6] 322056845510400,
xp 17 11 [5,7] 665218621267200,
xp 17 11 [4,8] 733289299142400,
xp 17 11 [3,9] 870856642656000,
xp 17 11 [2,10] 1153150846848000,
xp 17 11 [1,11] 1832574859315200,
xm 17 11 [14] 830502356523840000,
xm 18 11 [2,2,2,3] 2097295200,
xm 18 11 [1,2,3,3] 7070263200,
xm 18 11 [1,2,2,4] 7718911200,
xm 18 11 [1,1,3,4] 8627018400,
xm 18 11 [1,1,2,5] 9989179200,
xm 18 11 [1,1,1,6] 4454049600,
xp 18 11 [3,4,4] 1703003702400,
xp 18 11 [3,3,5] 1794549556800,
xp 18 11 [2,4,5] 3929509584000,
xp 18 11 [1,5,5] 2622613593600,
xp 18 11 [2,3,6] 4276406534400,
xp 18 11 [1,4,6] 5415345936000,
xp 18 11 [2,2,7] 2612831981760,
xp 18 11 [1,3,7] 6039777744000,
xp 18 11 [1,2,8] 7558824873600,
xp 18 11 [1,1,9] 5581097121600,
xm 18 11 [6,7] 1722359704665600,
xm 18 11 [5,8] 1820402590406400,
xm 18 11 [4,9] 2038391907552000,
xm 18 11 [3,10] 2449570986720000,
xm 18 11 [2,11] 3271787257939200,
xm 18 11 [1,12] 5177157547161600,
xp 18 11 [15] 2728793457149760000,
xp 19 11 [2,2,3,3] 4572968400,
xp 19 11 [1,3,3,3] 3372969600,
xp 19 11 [2,2,2,4] 3308104800,
xp 19 11 [1,2,3,4] 21924302400,
xp 19 11 [1,1,4,4] 6518912400,
xp 19 11 [1,2,2,5] 12583771200,
xp 19 11 [1,1,3,5] 13816202400,
xp 19 11 [1,1,2,6] 16475659200,
xp 19 11 [1,1,1,7] 7329722400,
xm 19 11 [4,4,4] 1071696225600,
xm 19 11 [3,4,5] 6784858080000,
xm 19 11 [2,5,5] 3910179873600,
xm 19 11 [3,3,6] 3700017921600,
xm 19 11 [2,4,6] 8082932457600,
xm 19 11 [1,5,6] 10637567740800,
xm 19 11 [2,3,7] 9025080704640,
xm 19 11 [1,4,7] 11249631993600,
xm 19 11 [2,2,8] 5620431136320,
xm 19 11 [1,3,8] 12818062857600,
xm 19 11 [1,2,9] 16285216147200,
xm 19 11 [1,1,10] 11978452886400,
xp 19 11 [7,7] 2096911892275200,
xp 19 11 [6,8] 4295607553036800,
xp 19 11 [5,9] 4618324462752000,
xp 19 11 [4,10] 5234729467968000,
xp 19 11 [3,11] 6351679529395200,
xp 19 11 [2,12] 8536432890585600]
def extB5_1 : PL := [
xp 19 11 [1,13] 13419737326195200,
xm 12 12 [1,2,2] 1452971520,
xm 12 12 [1,1,3] 1643241600,
xp 12 12 [3,4] 217945728000,
xp 12 12 [2,5] 261534873600,
xp 12 12 [1,6] 376734758400,
xm 12 12 [9] 75689437824000,
xm 13 12 [1,1,1,1] 21621600,
xp 13 12 [2,2,2] 4358914560,
xp 13 12 [1,2,3] 30875644800,
xp 13 12 [1,1,4] 19372953600,
xm 13 12 [4,4] 1525620096000,
xm 13 12 [3,5] 3269185920000,
xm 13 12 [2,6] 4007087884800,
xm 13 12 [1,7] 6010631827200,
xp 13 12 [10] 1438099318656000,
xp 14 12 [1,1,1,2] 345945600,
xm 14 12 [2,2,3] 73582629120,
xm 14 12 [1,3,3] 88475587200,
xm 14 12 [1,2,4] 189491702400,
xm 14 12 [1,1,5] 127740412800,
xp 14 12 [4,5] 23756084352000,
xp 14 12 [3,6] 26452384358400,
xp 14 12 [2,7] 33067037203200,
xp 14 12 [1,8] 50979062534400,
xm 14 12 [11] 14380993186560000,
xm 15 12 [1,1,2,2] 1427025600,
xm 15 12 [1,1,1,3] 1167566400,
xp 15 12 [2,3,3] 294226732800,
xp 15 12 [2,2,4] 317837520000,
xp 15 12 [1,3,4] 768258691200,
xp 15 12 [1,2,5] 864518054400,
xp 15 12 [1,1,6] 612064252800,
xm 15 12 [5,5] 64076044032000,
xm 15 12 [4,6] 133880947200000,
xm 15 12 [3,7] 152765944531200,
xm 15 12 [2,8] 194343762412800,
xm 15 12 [1,9] 304983911232000,
xp 15 12 [12] 100666952305920000,
xp 16 12 [1,2,2,2] 2075673600,
xp 16 12 [1,1,2,3] 7524316800,
xp 16 12 [1,1,1,4] 3372969600,
xm 16 12 [3,3,3] 309534825600,
xm 16 12 [2,3,4] 2020408790400,
xm 16 12 [1,4,4] 1324625702400,
xm 16 12 [2,2,5] 1146031286400,
xm 16 12 [1,3,5] 2762721561600,
xm 16 12 [1,2,6] 3232861632000,
xm 16 12 [1,1,7] 2362894934400,
xp 16 12 [5,6] 564027976512000,
xp 16 12 [4,7] 606504042144000,
xp 16 12 [3,8] 704271382214400,
xp 16 12 [2,9] 909608949849600,
xp 16 12 [1,10] 1442551638528000,
xm 16 12 [13] 553668237682560000,
xm 17 12 [2,2,2,2] 972972000,
xm 17 12 [1,2,2,3] 13881067200,
xm 17 12 [1,1,3,3] 8237829600,
xm 17 12 [1,1,2,4] 18291873600,
xm 17 12 [1,1,1,5] 8562153600,
xp 17 12 [3,3,4] 2686181097600,
xp 17 12 [2,4,4] 2935607875200,
xp 17 12 [2,3,5] 6140620886400,
xp 17 12 [1,4,5] 8031300076800,
xp 17 12 [2,2,6] 3610270984320,
xp 17 12 [1,3,6] 8639731900800,
xp 17 12 [1,2,7] 10431609027840,
xp 17 12 [1,1,8] 7771581417600,
xm 17 12 [6,6] 1033128134438400,
xm 17 12 [5,7] 2130501999225600,
xm 17 12 [4,8] 2337382311264000,
xm 17 12 [3,9] 2751533680896000,
xm 17 12 [2,10] 3599255384524800,
xm 17 12 [1,11] 5737259387059200,
xp 17 12 [14] 2546873893339776000,
xp 18 12 [2,2,2,3] 7697289600,
xp 18 12 [1,2,3,3] 26983756800,
xp 18 12 [1,2,2,4] 29837808000,
xp 18 12 [1,1,3,4] 34767532800,
xp 18 12 [1,1,2,5] 40994553600,
xp 18 12 [1,1,1,6] 19545926400,
xm 18 12 [3,4,4] 6816944534400,
xm 18 12 [3,3,5] 7151733388800,
xm 18 12 [2,4,5] 15668481628800,
xm 18 12 [1,5,5] 10672075814400,
xm 18 12 [2,3,6] 16909993900800,
xm 18 12 [1,4,6] 21955005072000,
xm 18 12 [2,2,7] 10222017886080,
xm 18 12 [1,3,7] 24220429833600,
xm 18 12 [1,2,8] 29978434886400,
xm 18 12 [1,1,9] 22555566633600,
xp 18 12 [6,7] 6765603612768000,
xp 18 12 [5,8] 7130771680032000,
xp 18 12 [4,9] 7939513790208000,
xp 18 12 [3,10] 9452275088256000,
xp 18 12 [2,11] 12494100024806400,
xp 18 12 [1,12] 19936597922841600,
xm 18 12 [15] 10187495573359104000,
xm 19 12 [2,2,3,3] 20562141600,
xm 19 12 [1,3,3,3] 15762146400,
xm 19 12 [2,2,2,4] 15091876800,
xm 19 12 [1,2,3,4] 104043139200,
xm 19 12 [1,1,4,4] 32756724000,
xm 19 12 [1,2,2,5] 60972912000,
xm 19 12 [1,1,3,5] 69794524800,
xm 19 12 [1,1,2,6] 85362076800,
xm 19 12 [1,1,1,7] 40886445600,
xp 19 12 [4,4,4] 5179238064000,
xp 19 12 [3,4,5] 32686410556800,
xp 19 12 [2,5,5] 18841408185600,
xp 19 12 [3,3,6] 17704198512000,
xp 19 12 [2,4,6] 38808869299200,
xp 19 12 [1,5,6] 52463169158400,
xp 19 12 [2,3,7] 42917457623040,
xp 19 12 [1,4,7] 55142690803200,
xp 19 12 [2,2,8] 26516366997120,
xp 19 12 [1,3,8] 62129321654400,
xp 19 12 [1,2,9] 78395078361600,
xp 19 12 [1,1,10] 59178751632000,
xm 19 12 [7,7] 9864988016083200,
xm 19 12 [6,8] 20183547556972800,
xm 19 12 [5,9] 21620294055360000,
xm 19 12 [4,10] 24349737379968000,
xm 19 12 [3,11] 29267769910579200,
xm 19 12 [2,12] 39010336254489600,
xm 19 12 [1,13] 62125890565939200,
xp 13 13 [1,1,1,1] 5405400,
xm 13 13 [2,2,2] 1349187840,
xm 13 13 [1,2,3] 9340531200,
xm 13 13 [1,1,4] 5751345600,
xp 13 13 [4,4] 487350864000,
xp 13 13 [3,5] 1035242208000,
xp 13 13 [2,6] 1267198732800,
xp 13 13 [1,7] 1855133280000,
xm 13 13 [10] 457577055936000,
xm 14 13 [1,1,1,2] 194594400,
xp 14 13 [2,2,3] 48259411200,
xp 14 13 [1,3,3] 57359016000,
xp 14 13 [1,2,4] 122724201600,
xp 14 13 [1,1,5] 81340459200,
xm 14 13 [4,5] 16019011008000,
xm 14 13 [3,6] 17723657952000,
xm 14 13 [2,7] 22038983366400,
xm 14 13 [1,8] 33392399040000,
xp 14 13 [11] 9609118174656000,
xp 15 13 [1,1,2,2] 1329728400,
xp 15 13 [1,1,1,3] 1102701600,
xm 15 13 [2,3,3] 307996603200,
xm 15 13 [2,2,4] 331459128000,
xm 15 13 [1,3,4] 799393795200,
xm 15 13 [1,2,5] 895912617600,
xm 15 13 [1,1,6] 626983156800,
xp 15 13 [5,5] 68462201808000,
xp 15 13 [4,6] 142583208768000,
xp 15 13 [3,7] 161824703040000,
xp 15 13 [2,8] 204361482124800,
xp 15 13 [1,9] 317227790880000,
xm 15 13 [12] 105700299921216000,
xm 16 13 [1,2,2,2] 2789186400,
xm 16 13 [1,1,2,3] 10313503200,
xm 16 13 [1,1,1,4] 4735130400,
xp 16 13 [3,3,3] 459520776000,
xp 16 13 [2,3,4] 2987153769600,
xp 16 13 [1,4,4] 1960430472000,
xp 16 13 [2,2,5] 1686355070400,
xp 16 13 [1,3,5] 4087001318400,
xp 16 13 [1,2,6] 4751995248000,
xp 16 13 [1,1,7] 3457683028800,
xm 16 13 [5,6] 844921101024000,
xm 16 13 [4,7] 904762770912000,
xm 16 13 [3,8] 1045182089952000,
xm 16 13 [2,9] 1339035201504000,
xm 16 13 [1,10] 2112996805920000,
xp 16 13 [13] 810368966062656000,
xp 17 13 [2,2,2,2] 1735133400,
xp 17 13 [1,2,2,3] 25362136800,
xp 17 13 [1,1,3,3] 15437822400,
xp 17 13 [1,1,2,4] 34443208800,
xp 17 13 [1,1,1,5] 16670253600,
xm 17 13 [3,3,4] 5268078129600,
xm 17 13 [2,4,4] 5739367233600,
xm 17 13 [2,3,5] 11989090713600,
xm 17 13 [1,4,5] 15803400412800,
xm 17 13 [2,2,6] 7012792987200,
xm 17 13 [1,3,6] 16973301945600,
xm 17 13 [1,2,7] 20344455331200,
xm 17 13 [1,1,8] 15202103716800,
xp 17 13 [6,6] 2032153211088000,
xp 17 13 [5,7] 4182362952768000,
xp 17 13 [4,8] 4568593917888000,
xp 17 13 [3,9] 5349462326208000,
xp 17 13 [2,10] 6942279760416000,
xp 17 13 [1,11] 11069580281760000,
xm 17 13 [14] 4862213796375936000,
xm 18 13 [2,2,2,3] 17708090400,
xm 18 13 [1,2,3,3] 63826963200,
xm 18 13 [1,2,2,4] 71026956000,
xm 18 13 [1,1,3,4] 85232347200,
xm 18 13 [1,1,2,5] 101383682400,
xm 18 13 [1,1,1,6] 50399949600,
xp 18 13 [3,4,4] 16926469560000,
xp 18 13 [3,3,5] 17725492699200,
xp 18 13 [2,4,5] 38775399062400,
xp 18 13 [1,5,5] 26726632732800,
xp 18 13 [2,3,6] 41753731219200,
xp 18 13 [1,4,6] 54970323408000,
xp 18 13 [2,2,7] 25115676505920,
xp 18 13 [1,3,7] 60462815212800,
xp 18 13 [1,2,8] 74328055401600,
xp 18 13 [1,1,9] 56488808376000,
xm 18 13 [6,7] 16719728318092800,
xm 18 13 [5,8] 17569796051808000,
xm 18 13 [4,9] 19477786360032000,
xm 18 13 [3,10] 23060790777024000,
xm 18 13 [2,11] 30264421713926400,
xm 18 13 [1,12] 48535852004640000,
xp 18 13 [15] 24311068981879680000,
xp 19 13 [2,2,3,3] 58897238400,
xp 19 13 [1,3,3,3] 46508061600,
xp 19 13 [2,2,2,4] 43567524000,
xp 19 13 [1,2,3,4] 309534825600,
xp 19 13 [1,1,4,4] 101448547200,
xp 19 13 [1,2,2,5] 183372789600,
xp 19 13 [1,1,3,5] 216713296800,
xp 19 13 [1,1,2,6] 268475407200,
xp 19 13 [1,1,1,7] 135005270400,
xm 19 13 [4,4,4] 15800849064000,
xm 19 13 [3,4,5] 99536073436800,
xm 19 13 [2,5,5] 57285737308800,
xm 19 13 [3,3,6] 53775532324800,
xm 19 13 [2,4,6] 117917719920000,
xm 19 13 [1,5,6] 162122043283200,
xm 19 13 [2,3,7] 130009297017600,
xm 19 13 [1,4,7] 170266294598400,
xm 19 13 [2,2,8] 79994255140800,
xm 19 13 [1,3,8] 191065235961600,
xm 19 13 [1,2,9] 239817360182400,
xm 19 13 [1,1,10] 184010670043200,
xp 19 13 [7,7] 29744199531446400,
xp 19 13 [6,8] 60771340742112000,
xp 19 13 [5,9] 64876294042560000,
xp 19 13 [4,10] 72749793628512000,
xp 19 13 [3,11] 86950467860256000,
xp 19 13 [2,12] 115203108840019200,
xp 19 13 [1,13] 185155287276960000,
xp 14 14 [1,1,1,2] 43243200,
xm 14 14 [2,2,3] 12454041600,
xm 14 14 [1,3,3] 14548248000,
xm 14 14 [1,2,4] 31308076800,
xm 14 14 [1,1,5] 20497276800,
xp 14 14 [4,5] 4271736268800,
xp 14 14 [3,6] 4692060172800,
xp 14 14 [2,7] 5832539032320,
xp 14 14 [1,8] 8682023750400,
xm 14 14 [11] 2562431513241600,
xm 15 14 [1,1,2,2] 648648000,
xm 15 14 [1,1,1,3] 540540000,
xp 15 14 [2,3,3] 168185160000,
xp 15 14 [2,2,4] 181102521600,
xp 15 14 [1,3,4] 432864432000,
xp 15 14 [1,2,5] 486486000000,
xp 15 14 [1,1,6] 336778041600,
xm 15 14 [5,5] 38445626419200,
xm 15 14 [4,6] 79833520166400,
xm 15 14 [3,7] 90159477408000,
xm 15 14 [2,8] 113534156736000,
xm 15 14 [1,9] 174085706995200,
xp 15 14 [12] 58935924804556800,
xp 16 14 [1,2,2,2] 2205403200,
xp 16 14 [1,1,2,3] 8237829600,
xp 16 14 [1,1,1,4] 3827023200,
xm 16 14 [3,3,3] 398640528000,
xm 16 14 [2,3,4] 2586548764800,
xm 16 14 [1,4,4] 1691025336000,
xm 16 14 [2,2,5] 1460236377600,
xm 16 14 [1,3,5] 3532018089600,
xm 16 14 [1,2,6] 4105941840000,
xm 16 14 [1,1,7] 2966786222400,
xp 16 14 [5,6] 746507707545600,
xp 16 14 [4,7] 796400154950400,
xp 16 14 [3,8] 916510045651200,
xp 16 14 [2,9] 1169179198387200,
xp 16 14 [1,10] 1831684395340800,
xm 16 14 [13] 707231097654681600,
xm 17 14 [2,2,2,2] 1945944000,
xm 17 14 [1,2,2,3] 28864836000,
xm 17 14 [1,1,3,3] 17837820000,
xm 17 14 [1,1,2,4] 39891852000,
xm 17 14 [1,1,1,5] 19675656000,
xp 17 14 [3,3,4] 6426989712000,
xp 17 14 [2,4,4] 6984425448000,
xp 17 14 [2,3,5] 14602363776000,
xp 17 14 [1,4,5] 19272196944000,
xp 17 14 [2,2,6] 8534910384000,
xp 17 14 [1,3,6] 20737536019200,
xp 17 14 [1,2,7] 24798850876800,
xp 17 14 [1,1,8] 18495678801600,
xm 17 14 [6,6] 2508642507571200,
xm 17 14 [5,7] 5154296597049600,
xm 17 14 [4,8] 5609700422726400,
xm 17 14 [3,9] 6546468523795200,
xm 17 14 [2,10] 8454510204940800,
xm 17 14 [1,11] 13446228629433600,
xp 17 14 [14] 5893592480455680000,
xp 18 14 [2,2,2,3] 26529703200,
xp 18 14 [1,2,3,3] 97426929600,
xp 18 14 [1,2,2,4] 108778269600,
xp 18 14 [1,1,3,4] 133102569600,
xp 18 14 [1,1,2,5] 159048489600,
xp 18 14 [1,1,1,6] 81124243200,
xm 18 14 [3,4,4] 27157162032000,
xm 18 14 [3,3,5] 28436746852800,
xm 18 14 [2,4,5] 62075613600000,
xm 18 14 [1,5,5] 43050767760000,
xm 18 14 [2,3,6] 66905446608000,
xm 18 14 [1,4,6] 88639219468800,
xm 18 14 [2,2,7] 40190359809600,
xm 18 14 [1,3,7] 97594021324800,
xm 18 14 [1,2,8] 119570475024000,
xm 18 14 [1,1,9] 91198352044800,
xp 18 14 [6,7] 26957598123456000,
xp 18 14 [5,8] 28257641277465600,
xp 18 14 [4,9] 31221225254419200,
xp 18 14 [3,10] 36843614788780800,
xp 18 14 [2,11] 48119560096608000,
xp 18 14 [1,12] 77297838377760000,
xm 18 14 [15] 38308351122961920000,
xm 19 14 [2,2,3,3] 112540428000,
xm 19 14 [1,3,3,3] 90810720000,
xm 19 14 [2,2,2,4] 83610727200,
xm 19 14 [1,2,3,4] 607134528000,
xm 19 14 [1,1,4,4] 204518714400,
xm 19 14 [1,2,2,5] 361815854400,
xm 19 14 [1,1,3,5] 437513076000,
xm 19 14 [1,1,2,6] 545772427200,
xm 19 14 [1,1,1,7] 283329446400,
xp 19 14 [4,4,4] 31948508592000,
xp 19 14 [3,4,5] 201118501584000,
xp 19 14 [2,5,5] 115534587168000,
xp 19 14 [3,3,6] 108656453505600,
xp 19 14 [2,4,6] 237981426883200,
xp 19 14 [1,5,6] 330521701910400,
xp 19 14 [2,3,7] 262515629376000,
xp 19 14 [1,4,7] 347589187545600,
xp 19 14 [2,2,8] 161272444132800,
xp 19 14 [1,3,8] 390023220787200,
xp 19 14 [1,2,9] 487862949974400,
xp 19 14 [1,1,10] 377668033142400,
xm 19 14 [7,7] 60063432157048320,
xm 19 14 [6,8] 122577178006483200,
xm 19 14 [5,9] 130495714520371200,
xm 19 14 [4,10] 145883599845984000,
xm 19 14 [3,11] 173782949243904000,
xm 19 14 [2,12] 229247412386952960,
xm 19 14 [1,13] 370454384485785600,
xp 15 15 [1,1,2,2] 129729600,
xp 15 15 [1,1,1,3] 108108000,
xm 15 15 [2,3,3] 37528920000,
xm 15 15 [2,2,4] 40579418880,
xm 15 15 [1,3,4] 95653958400,
xm 15 15 [1,2,5] 108194486400,
xm 15 15 [1,1,6] 74205331200,
xp 15 15 [5,5] 8862465830400,
xp 15 15 [4,6] 18372824870400,
xp 15 15 [3,7] 20642573952000,
xp 15 15 [2,8] 26005595616000,
xp 15 15 [1,9] 39335571475200,
xm 15 15 [12] 13600598031820800,
xm 16 15 [1,2,2,2] 951350400,
xm 16 15 [1,1,2,3] 3567564000,
xm 16 15 [1,1,1,4] 1664863200,
xp 16 15 [3,3,3] 187644600000,
xp 16 15 [2,3,4] 1218160944000,
xp 16 15 [1,4,4] 791062272000,
xp 16 15 [2,2,5] 689798229120,
xp 16 15 [1,3,5] 1656128073600,
xp 16 15 [1,2,6] 1932192662400,
xp 16 15 [1,1,7] 1385166182400,
xm 16 15 [5,6] 360329672102400,
xm 16 15 [4,7] 383344740979200,
xm 16 15 [3,8] 439666587360000,
xm 16 15 [2,9] 560101839897600,
xm 16 15 [1,10] 869396406278400,
xp 16 15 [13] 340014950795520000,
xp 17 15 [2,2,2,2] 1340539200,
xp 17 15 [1,2,2,3] 20043223200,
xp 17 15 [1,1,3,3] 12486474000,
xp 17 15 [1,1,2,4] 27956728800,
xp 17 15 [1,1,1,5] 13924310400,
xm 17 15 [3,3,4] 4778367422400,
xm 17 15 [2,4,4] 5186517336000,
xm 17 15 [2,3,5] 10862778326400,
xm 17 15 [1,4,5] 14294039760000,
xm 17 15 [2,2,6] 6361161206400,
xm 17 15 [1,3,6] 15426665654400,
xm 17 15 [1,2,7] 18469516665600,
xm 17 15 [1,1,8] 13709434939200,
xp 17 15 [6,6] 1899135484646400,
xp 17 15 [5,7] 3897458070105600,
xp 17 15 [4,8] 4229481262406400]
def extB5_2 : PL := [
xp 17 15 [3,9] 4923597930451200,
xp 17 15 [2,10] 6343004251584000,
xp 17 15 [1,11] 10036190093529600,
xm 17 15 [14] 4420194360341760000,
xm 18 15 [2,2,2,3] 25924298400,
xm 18 15 [1,2,3,3] 96324228000,
xm 18 15 [1,2,2,4] 107740432800,
xm 18 15 [1,1,3,4] 133426893600,
xm 18 15 [1,1,2,5] 159826867200,
xm 18 15 [1,1,1,6] 82767484800,
xp 18 15 [3,4,4] 28258061832000,
xp 18 15 [3,3,5] 29617397409600,
xp 18 15 [2,4,5] 64539178704000,
xp 18 15 [1,5,5] 44851414608000,
xp 18 15 [2,3,6] 69721097846400,
xp 18 15 [1,4,6] 92466848073600,
xp 18 15 [2,2,7] 41920304025600,
xp 18 15 [1,3,7] 102081800620800,
xp 18 15 [1,2,8] 124998880406400,
xp 18 15 [1,1,9] 95261093928000,
xm 18 15 [6,7] 28381895250508800,
xm 18 15 [5,8] 29696750930246400,
xm 18 15 [4,9] 32724180032544000,
xm 18 15 [3,10] 38537506630022400,
xm 18 15 [2,11] 50183129406009600,
xm 18 15 [1,12] 80503056707673600,
xp 18 15 [15] 39781749243075840000,
xp 19 15 [2,2,3,3] 145589043600,
xp 19 15 [1,3,3,3] 119243124000,
xp 19 15 [2,2,2,4] 108432324000,
xp 19 15 [1,2,3,4] 799264065600,
xp 19 15 [1,1,4,4] 274151077200,
xp 19 15 [1,2,2,5] 477923846400,
xp 19 15 [1,1,3,5] 586961575200,
xp 19 15 [1,1,2,6] 735047913600,
xp 19 15 [1,1,1,7] 389448259200,
xm 19 15 [4,4,4] 43531387099200,
xm 19 15 [3,4,5] 274093996176000,
xm 19 15 [2,5,5] 157245248160000,
xm 19 15 [3,3,6] 148286381443200,
xm 19 15 [2,4,6] 324266659516800,
xm 19 15 [1,5,6] 452758120214400,
xm 19 15 [2,3,7] 358470906393600,
xm 19 15 [1,4,7] 477041858092800,
xm 19 15 [2,2,8] 220274244590400,
xm 19 15 [1,3,8] 536324739350400,
xm 19 15 [1,2,9] 669851524742400,
xm 19 15 [1,1,10] 520333966152000,
xp 19 15 [7,7] 82349551034150400,
xp 19 15 [6,8] 167923936032652800,
xp 19 15 [5,9] 178401785879116800,
xp 19 15 [4,10] 198975814342905600,
xp 19 15 [3,11] 236568370047609600,
xp 19 15 [2,12] 311132787591225600,
xp 19 15 [1,13] 503838096291129600,
xp 16 16 [1,2,2,2] 172972800,
xp 16 16 [1,1,2,3] 648648000,
xp 16 16 [1,1,1,4] 302702400,
xm 16 16 [3,3,3] 37065600000,
xm 16 16 [2,3,4] 241297056000,
xm 16 16 [1,4,4] 155387232000,
xm 16 16 [2,2,5] 137305808640,
xm 16 16 [1,3,5] 325880755200,
xm 16 16 [1,2,6] 382442860800,
xm 16 16 [1,1,7] 272086214400,
xp 16 16 [5,6] 73360532044800,
xp 16 16 [4,7] 77915597760000,
xp 16 16 [3,8] 89046397440000,
xp 16 16 [2,9] 113534156736000,
xp 16 16 [1,10] 174315068928000,
xm 16 16 [13] 69390806284800000,
xm 17 16 [2,2,2,2] 518918400,
xm 17 16 [1,2,2,3] 7783776000,
xm 17 16 [1,1,3,3] 4864860000,
xm 17 16 [1,1,2,4] 10897286400,
xm 17 16 [1,1,1,5] 5448643200,
xp 17 16 [3,3,4] 1984862880000,
xp 17 16 [2,4,4] 2155241088000,
xp 17 16 [2,3,5] 4522373856000,
xp 17 16 [1,4,5] 5917226515200,
xp 17 16 [2,2,6] 2657692477440,
xp 17 16 [1,3,6] 6404490892800,
xp 17 16 [1,2,7] 7695092845440,
xp 17 16 [1,1,8] 5676707836800,
xm 17 16 [6,6] 806965852492800,
xm 17 16 [5,7] 1654927296422400,
xm 17 16 [4,8] 1792058748480000,
xm 17 16 [3,9] 2081459540160000,
xm 17 16 [2,10] 2680094184768000,
xm 17 16 [1,11] 4209708914611200,
xp 17 16 [14] 1873551769689600000,
xp 18 16 [2,2,2,3] 15956740800,
xp 18 16 [1,2,3,3] 59675616000,
xp 18 16 [1,2,2,4] 66810744000,
xp 18 16 [1,1,3,4] 83286403200,
xp 18 16 [1,1,2,5] 99891792000,
xp 18 16 [1,1,1,6] 52151299200,
xm 18 16 [3,4,4] 18445819392000,
xm 18 16 [3,3,5] 19359807667200,
xm 18 16 [2,4,5] 42150703795200,
xm 18 16 [1,5,5] 29262846412800,
xm 18 16 [2,3,6] 45654959750400,
xm 18 16 [1,4,6] 60397431494400,
xm 18 16 [2,2,7] 27517049239680,
xm 18 16 [1,3,7] 66884689872000,
xm 18 16 [1,2,8] 82033993641600,
xm 18 16 [1,1,9] 62295375542400,
xp 18 16 [6,7] 18838553096563200,
xp 18 16 [5,8] 19687713241996800,
xp 18 16 [4,9] 21649405377600000,
xp 18 16 [3,10] 25455734111808000,
xp 18 16 [2,11] 33102431589427200,
xp 18 16 [1,12] 52895907666201600,
xm 18 16 [15] 26229724775654400000,
xm 19 16 [2,2,3,3] 126162036000,
xm 19 16 [1,3,3,3] 104324220000,
xm 19 16 [2,2,2,4] 94097203200,
xm 19 16 [1,2,3,4] 700280380800,
xm 19 16 [1,1,4,4] 242918676000,
xm 19 16 [1,2,2,5] 419545526400,
xm 19 16 [1,1,3,5] 520345425600,
xm 19 16 [1,1,2,6] 653058806400,
xm 19 16 [1,1,1,7] 350334784800,
xp 19 16 [4,4,4] 39603564000000,
xp 19 16 [3,4,5] 249562388275200,
xp 19 16 [2,5,5] 143103165004800,
xp 19 16 [3,3,6] 135280470124800,
xp 19 16 [2,4,6] 295438926182400,
xp 19 16 [1,5,6] 413235997574400,
xp 19 16 [2,3,7] 327505800061440,
xp 19 16 [1,4,7] 436185596246400,
xp 19 16 [2,2,8] 201556520605440,
xp 19 16 [1,3,8] 491758729862400,
xp 19 16 [1,2,9] 614345937004800,
xp 19 16 [1,1,10] 477053706729600,
xm 19 16 [7,7] 75799410124838400,
xm 19 16 [6,8] 154487930614617600,
xm 19 16 [5,9] 163887668328384000,
xm 19 16 [4,10] 182451683494080000,
xm 19 16 [3,11] 216656199170611200,
xm 19 16 [2,12] 284429897969817600,
xm 19 16 [1,13] 460261507997491200,
xp 17 17 [2,2,2,2] 86486400,
xp 17 17 [1,2,2,3] 1297296000,
xp 17 17 [1,1,3,3] 810810000,
xp 17 17 [1,1,2,4] 1816214400,
xp 17 17 [1,1,1,5] 908107200,
xm 17 17 [3,3,4] 353513160000,
xm 17 17 [2,4,4] 384633849600,
xm 17 17 [2,3,5] 808215408000,
xm 17 17 [1,4,5] 1049771923200,
xm 17 17 [2,2,6] 477197360640,
xm 17 17 [1,3,6] 1138766428800,
xm 17 17 [1,2,7] 1375272138240,
xm 17 17 [1,1,8] 1007955748800,
xp 17 17 [6,6] 147535127308800,
xp 17 17 [5,7] 302432389459200,
xp 17 17 [4,8] 327045727008000,
xp 17 17 [3,9] 378932377824000,
xp 17 17 [2,10] 488417414284800,
xp 17 17 [1,11] 760281877555200,
xm 17 17 [14] 343484491109760000,
xm 18 17 [2,2,2,3] 5621616000,
xm 18 17 [1,2,3,3] 21081060000,
xm 18 17 [1,2,2,4] 23610787200,
xm 18 17 [1,1,3,4] 29513484000,
xm 18 17 [1,1,2,5] 35416180800,
xm 18 17 [1,1,1,6] 18551332800,
xp 18 17 [3,4,4] 6872353488000,
xp 18 17 [3,3,5] 7222695480000,
xp 18 17 [2,4,5] 15730232918400,
xp 18 17 [1,5,5] 10883417126400,
xp 18 17 [2,3,6] 17078642380800,
xp 18 17 [1,4,6] 22482918057600,
xp 18 17 [2,2,7] 10329382103040,
xp 18 17 [1,3,7] 24968969625600,
xp 18 17 [1,2,8] 30724380086400,
xp 18 17 [1,1,9] 23213338948800,
xm 18 17 [6,7] 7162669594080000,
xm 18 17 [5,8] 7479897384960000,
xm 18 17 [4,9] 8212304003904000,
xm 18 17 [3,10] 9641802250080000,
xm 18 17 [2,11] 12537611332646400,
xm 18 17 [1,12] 19915161403737600,
xp 18 17 [15] 9961050242183040000,
xp 19 17 [2,2,3,3] 70216146000,
xp 19 17 [1,3,3,3] 58378320000,
xp 19 17 [2,2,2,4] 52410758400,
xp 19 17 [1,2,3,4] 392172580800,
xp 19 17 [1,1,4,4] 136897160400,
xp 19 17 [1,2,2,5] 235199764800,
xp 19 17 [1,1,3,5] 293318625600,
xp 19 17 [1,1,2,6] 368561793600,
xp 19 17 [1,1,1,7] 199070071200,
xm 19 17 [4,4,4] 23091652584000,
xm 19 17 [3,4,5] 145665843523200,
xm 19 17 [2,5,5] 83564684985600,
xm 19 17 [3,3,6] 79122472228800,
xm 19 17 [2,4,6] 172686184070400,
xm 19 17 [1,5,6] 241309510041600,
xm 19 17 [2,3,7] 191959124797440,
xm 19 17 [1,4,7] 255095096256000,
xm 19 17 [2,2,8] 118431371298240,
xm 19 17 [1,3,8] 288436122374400,
xm 19 17 [1,2,9] 360965087683200,
xm 19 17 [1,1,10] 279506185358400,
xp 19 17 [7,7] 44893974219494400,
xp 19 17 [6,8] 91469795146329600,
xp 19 17 [5,9] 96939989546400000,
xp 19 17 [4,10] 107762263697088000,
xp 19 17 [3,11] 127842671551795200,
xp 19 17 [2,12] 167712550471065600,
xp 19 17 [1,13] 270554753704435200,
xp 18 18 [2,2,2,3] 864864000,
xp 18 18 [1,2,3,3] 3243240000,
xp 18 18 [1,2,2,4] 3632428800,
xp 18 18 [1,1,3,4] 4540536000,
xp 18 18 [1,1,2,5] 5448643200,
xp 18 18 [1,1,1,6] 2854051200,
xm 18 18 [3,4,4] 1115962848000,
xm 18 18 [3,3,5] 1174052880000,
xm 18 18 [2,4,5] 2560862304000,
xm 18 18 [1,5,5] 1762388409600,
xm 18 18 [2,3,6] 2785553971200,
xm 18 18 [1,4,6] 3643326086400,
xm 18 18 [2,2,7] 1691881551360,
xm 18 18 [1,3,7] 4055433782400,
xm 18 18 [1,2,8] 5012232825600,
xm 18 18 [1,1,9] 3765358396800,
xp 18 18 [6,7] 1190105101785600,
xp 18 18 [5,8] 1242197244288000,
xp 18 18 [4,9] 1362409880832000,
xp 18 18 [3,10] 1596850542144000,
xp 18 18 [2,11] 2078707196966400,
xp 18 18 [1,12] 3276788074560000,
xm 18 18 [15] 1660175040363840000,
xm 19 18 [2,2,3,3] 22702680000,
xm 19 18 [1,3,3,3] 18918900000,
xm 19 18 [2,2,2,4] 16951334400,
xm 19 18 [1,2,3,4] 127135008000,
xm 19 18 [1,1,4,4] 44497252800,
xm 19 18 [1,2,2,5] 76281004800,
xm 19 18 [1,1,3,5] 95351256000,
xm 19 18 [1,1,2,6] 119870150400,
xm 19 18 [1,1,1,7] 64929664800,
xp 19 18 [4,4,4] 7811739936000,
xp 19 18 [3,4,5] 49328383104000,
xp 19 18 [2,5,5] 28334925964800,
xp 19 18 [3,3,6] 26842351536000,
xp 19 18 [2,4,6] 58598341401600,
xp 19 18 [1,5,6] 81631572422400,
xp 19 18 [2,3,7] 65297318486400,
xp 19 18 [1,4,7] 86399740627200,
xp 19 18 [2,2,8] 40414921747200,
xp 19 18 [1,3,8] 97951037184000,
xp 19 18 [1,2,9] 122937995980800,
xp 19 18 [1,1,10] 94783818729600,
xm 19 18 [7,7] 15471366323212800,
xm 19 18 [6,8] 31515746213952000,
xm 19 18 [5,9] 33379042080384000,
xm 19 18 [4,10] 37063741530816000,
xm 19 18 [3,11] 43927397369856000,
xm 19 18 [2,12] 57640629753907200,
xm 19 18 [1,13] 92521075046400000,
xp 19 19 [2,2,3,3] 3243240000,
xp 19 19 [1,3,3,3] 2702700000,
xp 19 19 [2,2,2,4] 2421619200,
xp 19 19 [1,2,3,4] 18162144000,
xp 19 19 [1,1,4,4] 6356750400,
xp 19 19 [1,2,2,5] 10897286400,
xp 19 19 [1,1,3,5] 13621608000,
xp 19 19 [1,1,2,6] 17124307200,
xp 19 19 [1,1,1,7] 9275666400,
xm 19 19 [4,4,4] 1166816851200,
xm 19 19 [3,4,5] 7373830464000,
xm 19 19 [2,5,5] 4243997721600,
xm 19 19 [3,3,6] 4018096368000,
xm 19 19 [2,4,6] 8782175001600,
xm 19 19 [1,5,6] 12175382419200,
xm 19 19 [2,3,7] 9805222627200,
xm 19 19 [1,4,7] 12899360073600,
xm 19 19 [2,2,8] 6091583097600,
xm 19 19 [1,3,8] 14655552912000,
xm 19 19 [1,2,9] 18463635590400,
xm 19 19 [1,1,10] 14163099350400,
xp 19 19 [7,7] 2358905852983680,
xp 19 19 [6,8] 4804498373875200,
xp 19 19 [5,9] 5086330221772800,
xp 19 19 [4,10] 5643450356544000,
xp 19 19 [3,11] 6680625016665600,
xp 19 19 [2,12] 8775623968151040,
xp 19 19 [1,13] 13993812600768000]
/-- row 5 -/
def extB5 : PL := extB5_0 ++ extB5_1 ++ extB5_2
def extB6_0 : PL := [
xp 11 11 [1,1,2] 95135040,
xm 11 11 [3,3] 4262544000,
xm 11 11 [2,4] 9859449600,
xm 11 11 [1,5] 14010796800,
xp 11 11 [8] 2226159936000,
xm 12 11 [1,2,2] 804323520,
xm 12 11 [1,1,3] 994593600,
xp 12 11 [3,4] 108972864000,
xp 12 11 [2,5] 130767436800,
xp 12 11 [1,6] 205491686400,
xm 12 11 [9] 37844718912000,
xm 13 11 [1,1,1,1] 10810800,
xp 13 11 [2,2,2] 1089728640,
xp 13 11 [1,2,3] 8406478080,
xp 13 11 [1,1,4] 5967561600,
xm 13 11 [4,4] 356756400000,
xm 13 11 [3,5] 766442476800,
xm 13 11 [2,6] 957404448000,
xm 13 11 [1,7] 1592560569600,
xp 13 11 [10] 340602470208000,
xp 14 11 [1,1,1,2] 108108000,
xm 14 11 [2,2,3] 11831339520,
xm 14 11 [1,3,3] 15178363200,
xm 14 11 [1,2,4] 33816182400,
xm 14 11 [1,1,5] 26032406400,
xp 14 11 [4,5] 3487131648000,
xp 14 11 [3,6] 3910569062400,
xp 14 11 [2,7] 5068794931200,
xp 14 11 [1,8] 8682023750400,
xm 14 11 [11] 2157148977984000,
xm 15 11 [1,1,2,2] 302702400,
xm 15 11 [1,1,1,3] 259459200,
xp 15 11 [2,3,3] 33392399040,
xp 15 11 [2,2,4] 37595638080,
xp 15 11 [1,3,4] 94616121600,
xp 15 11 [1,2,5] 113643129600,
xp 15 11 [1,1,6] 91113422400,
xm 15 11 [5,5] 6657723072000,
xm 15 11 [4,6] 13950602265600,
xm 15 11 [3,7] 16140437913600,
xm 15 11 [2,8] 21576627072000,
xm 15 11 [1,9] 37399486924800,
xp 15 11 [12] 10785744889920000,
xm 16 11 [1,1,1,1,1] 540540,
xp 16 11 [1,2,2,2] 324324000,
xp 16 11 [1,1,2,3] 1189188000,
xp 16 11 [1,1,1,4] 562161600,
xm 16 11 [3,3,3] 26075649600,
xm 16 11 [2,3,4] 176951174400,
xm 16 11 [1,4,4] 122853931200,
xm 16 11 [2,2,5] 106871244480,
xm 16 11 [1,3,5] 262313251200,
xm 16 11 [1,2,6] 332730478080,
xm 16 11 [1,1,7] 270797567040,
xp 16 11 [5,6] 44448474470400,
xp 16 11 [4,7] 48091281638400,
xp 16 11 [3,8] 57058191590400,
xp 16 11 [2,9] 78138213753600,
xp 16 11 [1,10] 135573140102400,
xm 16 11 [13] 45300128537664000,
xp 17 11 [1,1,1,1,2] 2702700,
xm 17 11 [2,2,2,2] 118918800,
xm 17 11 [1,2,2,3] 1686484800,
xm 17 11 [1,1,3,3] 983782800,
xm 17 11 [1,1,2,4] 2270268000,
xm 17 11 [1,1,1,5] 1102701600,
xp 17 11 [3,3,4] 180324144000,
xp 17 11 [2,4,4] 203718715200,
xp 17 11 [2,3,5] 436669833600,
xp 17 11 [1,4,5] 590702112000,
xp 17 11 [2,2,6] 276479723520,
xp 17 11 [1,3,6] 661620960000,
xp 17 11 [1,2,7] 871661831040,
xp 17 11 [1,1,8] 709231723200,
xm 17 11 [6,6] 64421643686400,
xm 17 11 [5,7] 133177293849600,
xm 17 11 [4,8] 147592847001600,
xm 17 11 [3,9] 178846264396800,
xm 17 11 [2,10] 249329912832000,
xm 17 11 [1,11] 430094099635200,
xp 17 11 [14] 166100471304768000,
xm 18 11 [1,1,1,2,2] 5405400,
xm 18 11 [1,1,1,1,3] 2702700,
xp 18 11 [2,2,2,3] 756756000,
xp 18 11 [1,2,3,3] 2594592000,
xp 18 11 [1,2,2,4] 2940537600,
xp 18 11 [1,1,3,4] 3308104800,
xp 18 11 [1,1,2,5] 4108104000,
xp 18 11 [1,1,1,6] 1989187200,
xm 18 11 [3,4,4] 371502331200,
xm 18 11 [3,3,5] 399307708800,
xm 18 11 [2,4,5] 897728832000,
xm 18 11 [1,5,5] 634766932800,
xm 18 11 [2,3,6] 1008621694080,
xm 18 11 [1,4,6] 1326441916800,
xm 18 11 [2,2,7] 659700961920,
xm 18 11 [1,3,7] 1542242782080,
xm 18 11 [1,2,8] 2082782782080,
xm 18 11 [1,1,9] 1679609131200,
xp 18 11 [6,7] 344615785113600,
xp 18 11 [5,8] 365015505254400,
xp 18 11 [4,9] 412353317376000,
xp 18 11 [3,10] 508613940806400,
xp 18 11 [2,11] 717936579360000,
xp 18 11 [1,12] 1226168892748800,
xm 18 11 [15] 545758691429952000,
xp 19 11 [1,1,2,2,2] 5405400,
xp 19 11 [1,1,1,2,3] 10810800,
xp 19 11 [1,1,1,1,4] 2702700,
xm 19 11 [2,2,3,3] 1654052400,
xm 19 11 [1,3,3,3] 1232431200,
xm 19 11 [2,2,2,4] 1232431200,
xm 19 11 [1,2,3,4] 8216208000,
xm 19 11 [1,1,4,4] 2497294800,
xm 19 11 [1,2,2,5] 4994589600,
xm 19 11 [1,1,3,5] 5470264800,
xm 19 11 [1,1,2,6] 7027020000,
xm 19 11 [1,1,1,7] 3351348000,
xp 19 11 [4,4,4] 232475443200,
xp 19 11 [3,4,5] 1500971472000,
xp 19 11 [2,5,5] 901361260800,
xp 19 11 [3,3,6] 845318073600,
xp 19 11 [2,4,6] 1886787302400,
xp 19 11 [1,5,6] 2599002806400,
xp 19 11 [2,3,7] 2195336183040,
xp 19 11 [1,4,7] 2807867462400,
xp 19 11 [2,2,8] 1467397451520,
xp 19 11 [1,3,8] 3360775017600,
xp 19 11 [1,2,9] 4606438636800,
xp 19 11 [1,1,10] 3664601740800,
xm 19 11 [7,7] 419515948051200,
xm 19 11 [6,8] 860066772364800,
xm 19 11 [5,9] 928339828416000,
xm 19 11 [4,10] 1065645637056000,
xm 19 11 [3,11] 1333915033651200,
xm 19 11 [2,12] 1898023961433600,
xm 19 11 [1,13] 3201663219955200,
xp 12 12 [1,2,2] 804323520,
xp 12 12 [1,1,3] 994593600,
xm 12 12 [3,4] 108972864000,
xm 12 12 [2,5] 130767436800,
xm 12 12 [1,6] 205491686400,
xp 12 12 [9] 37844718912000,
xp 13 12 [1,1,1,1] 21621600,
xm 13 12 [2,2,2] 2412970560,
xm 13 12 [1,2,3] 17902684800,
xm 13 12 [1,1,4] 12410798400,
xp 13 12 [4,4] 762810048000,
xp 13 12 [3,5] 1634592960000,
xp 13 12 [2,6] 2054916864000,
xp 13 12 [1,7] 3339239904000,
xm 13 12 [10] 719049659328000,
xm 14 12 [1,1,1,2] 345945600,
xp 14 12 [2,2,3] 41798877120,
xp 14 12 [1,3,3] 51502651200,
xp 14 12 [1,2,4] 114940425600,
xp 14 12 [1,1,5] 85059374400,
xm 14 12 [4,5] 11878042176000,
xm 14 12 [3,6] 13328938022400,
xm 14 12 [2,7] 17312674579200,
xm 14 12 [1,8] 28717463174400,
xp 14 12 [11] 7190496593280000,
xp 15 12 [1,1,2,2] 1427025600,
xp 15 12 [1,1,1,3] 1167566400,
xm 15 12 [2,3,3] 167740372800,
xm 15 12 [2,2,4] 186680894400,
xm 15 12 [1,3,4] 456821164800,
xm 15 12 [1,2,5] 544864320000,
xm 15 12 [1,1,6] 418637419200,
xp 15 12 [5,5] 32038022016000,
xp 15 12 [4,6] 67111716672000,
xp 15 12 [3,7] 77829976224000,
xp 15 12 [2,8] 103516437024000,
xp 15 12 [1,9] 173640475008000,
xm 15 12 [12] 50333476152960000,
xp 16 12 [1,1,1,1,1] 2702700,
xm 16 12 [1,2,2,2] 2075673600,
xm 16 12 [1,1,2,3] 7524316800,
xm 16 12 [1,1,1,4] 3372969600,
xp 16 12 [3,3,3] 175913337600,
xp 16 12 [2,3,4] 1172236665600,
xp 16 12 [1,4,4] 788799211200,
xp 16 12 [2,2,5] 695869574400,
xp 16 12 [1,3,5] 1686225340800,
xp 16 12 [1,2,6] 2101360060800,
xp 16 12 [1,1,7] 1647306460800,
xm 16 12 [5,6] 282270852864000,
xm 16 12 [4,7] 305589489004800,
xm 16 12 [3,8] 363155182790400,
xm 16 12 [2,9] 491536113868800,
xm 16 12 [1,10] 828131496192000,
xp 16 12 [13] 276834118841280000,
xm 17 12 [1,1,1,1,2] 18918900,
xp 17 12 [2,2,2,2] 972972000,
xp 17 12 [1,2,2,3] 13881067200,
xp 17 12 [1,1,3,3] 8237829600,
xp 17 12 [1,1,2,4] 18291873600,
xp 17 12 [1,1,1,5] 8562153600,
xm 17 12 [3,3,4] 1541706566400,
xm 17 12 [2,4,4] 1708668561600,
xm 17 12 [2,3,5] 3646699056000,
xm 17 12 [1,4,5] 4841422185600,
xm 17 12 [2,2,6] 2259007470720,
xm 17 12 [1,3,6] 5410502697600,
xm 17 12 [1,2,7] 6948109808640,
xm 17 12 [1,1,8] 5494048560000,
xp 17 12 [6,6] 516923677670400,
xp 17 12 [5,7] 1068701547513600,
xp 17 12 [4,8] 1185943895136000,
xp 17 12 [3,9] 1435873158720000,
xp 17 12 [2,10] 1968815847398400,
xp 17 12 [1,11] 3315197376691200,
xm 17 12 [14] 1273436946669888000,
xp 18 12 [1,1,1,2,2] 48648600,
xp 18 12 [1,1,1,1,3] 27027000,
xm 18 12 [2,2,2,3] 7697289600,
xm 18 12 [1,2,3,3] 26983756800,
xm 18 12 [1,2,2,4] 29837808000,
xm 18 12 [1,1,3,4] 34767532800,
xm 18 12 [1,1,2,5] 40994553600,
xm 18 12 [1,1,1,6] 19545926400,
xp 18 12 [3,4,4] 3917660947200,
xp 18 12 [3,3,5] 4175217446400,
xp 18 12 [2,4,5] 9232336713600,
xp 18 12 [1,5,5] 6435755726400,
xp 18 12 [2,3,6] 10290930249600,
xp 18 12 [1,4,6] 13459964918400,
xp 18 12 [2,2,7] 6564162084480,
xp 18 12 [1,3,7] 15524395286400,
xp 18 12 [1,2,8] 20356130995200,
xp 18 12 [1,1,9] 16112546049600,
xm 18 12 [6,7] 3388067530848000,
xm 18 12 [5,8] 3590430139296000,
xm 18 12 [4,9] 4061029452480000,
xm 18 12 [3,10] 4988824416576000,
xm 18 12 [2,11] 6905548121472000,
xm 18 12 [1,12] 11580483987072000,
xp 18 12 [15] 5093747786679552000,
xm 19 12 [1,1,2,2,2] 59459400,
xm 19 12 [1,1,1,2,3] 129729600,
xm 19 12 [1,1,1,1,4] 37837800,
xp 19 12 [2,2,3,3] 20562141600,
xp 19 12 [1,3,3,3] 15762146400,
xp 19 12 [2,2,2,4] 15091876800,
xp 19 12 [1,2,3,4] 104043139200,
xp 19 12 [1,1,4,4] 32756724000,
xp 19 12 [1,2,2,5] 60972912000,
xp 19 12 [1,1,3,5] 69794524800,
xp 19 12 [1,1,2,6] 85362076800,
xp 19 12 [1,1,1,7] 40886445600,
xm 19 12 [4,4,4] 2969078112000,
xm 19 12 [3,4,5] 18964651305600,
xm 19 12 [2,5,5] 11128853736000,
xm 19 12 [3,3,6] 10546238102400,
xm 19 12 [2,4,6] 23252992963200,
xm 19 12 [1,5,6] 31885460006400,
xm 19 12 [2,3,7] 26736025155840,
xm 19 12 [1,4,7] 34425738547200,
xm 19 12 [2,2,8] 17404678811520,
xm 19 12 [1,3,8] 40636759363200,
xm 19 12 [1,2,9] 54052875676800,
xm 19 12 [1,1,10] 42612411441600,
xp 19 12 [7,7] 4938838563859200,
xp 19 12 [6,8] 10126784424556800,
xp 19 12 [5,9] 10940377383936000,
xp 19 12 [4,10] 12562220518848000,
xp 19 12 [3,11] 15610278703219200,
xp 19 12 [2,12] 21753144430617600,
xp 19 12 [1,13] 36240102830131200,
xm 13 13 [1,1,1,1] 10810800,
xp 13 13 [2,2,2] 1356600960,
xp 13 13 [1,2,3] 9562924800,
xp 13 13 [1,1,4] 6486480000,
xm 13 13 [4,4] 417729312000,
xm 13 13 [3,5] 887350464000,
xm 13 13 [2,6] 1130204275200,
xm 13 13 [1,7] 1780927948800,
xp 13 13 [10] 392208905088000,
xp 14 13 [1,1,1,2] 367567200,
xm 14 13 [2,2,3] 49037788800,
xm 14 13 [1,3,3] 58470984000,
xm 14 13 [1,2,4] 130507977600,
xm 14 13 [1,1,5] 93405312000,
xp 14 13 [4,5] 13730580864000,
xp 14 13 [3,6] 15411876480000,
xp 14 13 [2,7] 20035439424000,
xp 14 13 [1,8] 32279319072000,
xm 14 13 [11] 8236387006848000,
xm 15 13 [1,1,2,2] 2482159680,
xm 15 13 [1,1,1,3] 1967565600,
xp 15 13 [2,3,3] 313222852800,
xp 15 13 [2,2,4] 344895408000,
xp 15 13 [1,3,4] 828416160000,
xp 15 13 [1,2,5] 979977398400,
xp 15 13 [1,1,6] 728561433600,
xm 15 13 [5,5] 58681887264000,
xm 15 13 [4,6] 122874687936000,
xm 15 13 [3,7] 142713976204800,
xm 15 13 [2,8] 188555746579200,
xm 15 13 [1,9] 308323151136000,
xp 15 13 [12] 90600257075328000,
xm 16 13 [1,1,1,1,1] 5405400,
xp 16 13 [1,2,2,2] 5202156960,
xp 16 13 [1,1,2,3] 18681062400,
xp 16 13 [1,1,1,4] 8086478400,
xm 16 13 [3,3,3] 467119224000,
xm 16 13 [2,3,4] 3072775305600,
xm 16 13 [1,4,4] 2025727704000,
xm 16 13 [2,2,5] 1798052256000,
xm 16 13 [1,3,5] 4325184864000,
xm 16 13 [1,2,6] 5307756854400,
xm 16 13 [1,1,7] 4049898652800,
xp 16 13 [5,6] 725759274240000,
xp 16 13 [4,7] 786005700480000,
xp 16 13 [3,8] 933874093152000,
xp 16 13 [2,9] 1249988804064000,
xp 16 13 [1,10] 2062537180704000,
xm 16 13 [13] 694601970910848000,
xp 17 13 [1,1,1,1,2] 54054000,
xm 17 13 [2,2,2,2] 3249726480,
xm 17 13 [1,2,2,3] 46456169760,
xm 17 13 [1,1,3,3] 27783756000,
xm 17 13 [1,1,2,4] 60389128800,
xm 17 13 [1,1,1,5] 27589161600,
xp 17 13 [3,3,4] 5389801560000,
xp 17 13 [2,4,4] 5903160120000,
xp 17 13 [2,3,5] 12539626070400,
xp 17 13 [1,4,5] 16474361904000,
xp 17 13 [2,2,6] 7638219388800,
xp 17 13 [1,3,6] 18324565459200,
xp 17 13 [1,2,7] 23079674217600,
xp 17 13 [1,1,8] 17903463177600,
xm 17 13 [6,6] 1744927984800000,
xm 17 13 [5,7] 3607780176000000,
xm 17 13 [4,8] 4005461075616000,
xm 17 13 [3,9] 4836332460960000,
xm 17 13 [2,10] 6541570971936000,
xm 17 13 [1,11] 10842511968288000,
xp 17 13 [14] 4167611825465088000,
xm 18 13 [1,1,1,2,2] 183783600,
xm 18 13 [1,1,1,1,3] 108108000,
xp 18 13 [2,2,2,3] 32769696960,
xp 18 13 [1,2,3,3] 116367451200,
xp 18 13 [1,2,2,4] 126910143360,
xp 18 13 [1,1,3,4] 150810660000,
xp 18 13 [1,1,2,5] 172734962400,
xp 18 13 [1,1,1,6] 81578296800,
xm 18 13 [3,4,4] 17327334024000,
xm 18 13 [3,3,5] 18347749992000,
xm 18 13 [2,4,5] 40188932784000,
xm 18 13 [1,5,5] 27802350576000,
xm 18 13 [2,3,6] 44450809603200,
xm 18 13 [1,4,6] 58081498675200,
xm 18 13 [2,2,7] 27840075943680,
xm 18 13 [1,3,7] 66418182230400,
xm 18 13 [1,2,8] 85304736316800,
xm 18 13 [1,1,9] 66784798080000,
xp 18 13 [6,7] 14380821943488000,
xp 18 13 [5,8] 15243801404832000,
xp 18 13 [4,9] 17238269464416000,
xp 18 13 [3,10] 21067264554336000,
xp 18 13 [2,11] 28735495069881600,
xp 18 13 [1,12] 47672992413446400,
xm 18 13 [15] 20838059127325440000,
xp 19 13 [1,1,2,2,2] 281080800,
xp 19 13 [1,1,1,2,3] 648648000,
xp 19 13 [1,1,1,1,4] 205405200,
xm 19 13 [2,2,3,3] 108622594080,
xm 19 13 [1,3,3,3] 84843158400,
xm 19 13 [2,2,2,4] 79018299360,
xm 19 13 [1,2,3,4] 556410254400,
xm 19 13 [1,1,4,4] 178897118400,
xm 19 13 [1,2,2,5] 319472112960,
xm 19 13 [1,1,3,5] 375805029600,
xm 19 13 [1,1,2,6] 446875228800,
xm 19 13 [1,1,1,7] 215070055200,
xp 19 13 [4,4,4] 16160138280000,
xp 19 13 [3,4,5] 102509179344000,
xp 19 13 [2,5,5] 59342210928000,
xp 19 13 [3,3,6] 56459378289600,
xp 19 13 [2,4,6] 123661887148800,
xp 19 13 [1,5,6] 169582792579200,
xp 19 13 [2,3,7] 140732226835200,
xp 19 13 [1,4,7] 182532401251200,
xp 19 13 [2,2,8] 89935304659200,
xp 19 13 [1,3,8] 212953992451200,
xp 19 13 [1,2,9] 277644954787200,
xp 19 13 [1,1,10] 218163673728000,
xm 19 13 [7,7] 25572498535584000,
xm 19 13 [6,8] 52440365289312000,
xm 19 13 [5,9] 56666473063200000,
xm 19 13 [4,10] 64978269291936000,
xm 19 13 [3,11] 80165132375328000,
xm 19 13 [2,12] 110071364955552000,
xm 19 13 [1,13] 182279088639648000,
xm 14 14 [1,1,1,2] 129729600,
xp 14 14 [2,2,3] 19070251200,
xp 14 14 [1,3,3] 22146696000,
xp 14 14 [1,2,4] 49383734400,
xp 14 14 [1,1,5] 34378344000]
def extB6_1 : PL := [
xm 14 14 [4,5] 5339670336000,
xm 14 14 [3,6] 5993507520000,
xm 14 14 [2,7] 7791559776000,
xm 14 14 [1,8] 12243879648000,
xp 14 14 [11] 3203039391552000,
xp 15 14 [1,1,2,2] 1894052160,
xp 15 14 [1,1,1,3] 1470268800,
xm 15 14 [2,3,3] 257142600000,
xm 15 14 [2,2,4] 281642961600,
xm 15 14 [1,3,4] 665945280000,
xm 15 14 [1,2,5] 781491110400,
xm 15 14 [1,1,6] 566529163200,
xp 15 14 [5,5] 48057033024000,
xp 15 14 [4,6] 100690926336000,
xp 15 14 [3,7] 116873396640000,
xp 15 14 [2,8] 153605035584000,
xp 15 14 [1,9] 245990672928000,
xm 15 14 [12] 73669906005696000,
xp 16 14 [1,1,1,1,1] 5405400,
xm 16 14 [1,2,2,2] 6408642240,
xm 16 14 [1,1,2,3] 22810788000,
xm 16 14 [1,1,1,4] 9664855200,
xp 16 14 [3,3,3] 609636456000,
xp 16 14 [2,3,4] 3983217638400,
xp 16 14 [1,4,4] 2588754168000,
xp 16 14 [2,2,5] 2307500395200,
xp 16 14 [1,3,5] 5509616112000,
xp 16 14 [1,2,6] 6683150073600,
xp 16 14 [1,1,7] 4996016625600,
xm 16 14 [5,6] 936730738944000,
xm 16 14 [4,7] 1014700823136000,
xm 16 14 [3,8] 1203239445408000,
xm 16 14 [2,9] 1597269754080000,
xm 16 14 [1,10] 2592363245472000,
xp 16 14 [13] 884038872068352000,
xm 17 14 [1,1,1,1,2] 81081000,
xp 17 14 [2,2,2,2] 5682156480,
xp 17 14 [1,2,2,3] 81236675520,
xp 17 14 [1,1,3,3] 48626978400,
xp 17 14 [1,1,2,4] 104648544000,
xp 17 14 [1,1,1,5] 47070223200,
xm 17 14 [3,3,4] 9870105960000,
xm 17 14 [2,4,4] 10739232504000,
xm 17 14 [2,3,5] 22731739430400,
xm 17 14 [1,4,5] 29642348736000,
xm 17 14 [2,2,6] 13675705243200,
xm 17 14 [1,3,6] 32784486134400,
xm 17 14 [1,2,7] 40744434931200,
xm 17 14 [1,1,8] 31147687771200,
xp 17 14 [6,6] 3146591448000000,
xp 17 14 [5,7] 6507151114464000,
xp 17 14 [4,8] 7220549752416000,
xp 17 14 [3,9] 8688702230208000,
xp 17 14 [2,10] 11637251065440000,
xp 17 14 [1,11] 19054815972192000,
xm 17 14 [14] 7366990600569600000,
xp 18 14 [1,1,1,2,2] 378378000,
xp 18 14 [1,1,1,1,3] 229729500,
xm 18 14 [2,2,2,3] 75878843040,
xm 18 14 [1,2,3,3] 271394323200,
xm 18 14 [1,2,2,4] 293807273760,
xm 18 14 [1,1,3,4] 352302350400,
xm 18 14 [1,1,2,5] 397988791200,
xm 18 14 [1,1,1,6] 186616029600,
xp 18 14 [3,4,4] 41711742072000,
xp 18 14 [3,3,5] 44003075688000,
xp 18 14 [2,4,5] 95850455500800,
xp 18 14 [1,5,5] 65988258336000,
xp 18 14 [2,3,6] 105361970313600,
xp 18 14 [1,4,6] 137527473283200,
xp 18 14 [2,2,7] 65125686225600,
xp 18 14 [1,3,7] 156102589843200,
xp 18 14 [1,2,8] 197751499545600,
xp 18 14 [1,1,9] 153512278920000,
xm 18 14 [6,7] 33899278533120000,
xm 18 14 [5,8] 35933132499264000,
xm 18 14 [4,9] 40578443313408000,
xm 18 14 [3,10] 49358418100992000,
xm 18 14 [2,11] 66625627644576000,
xm 18 14 [1,12] 109655073047520000,
xp 18 14 [15] 47885438903702400000,
xm 19 14 [1,1,2,2,2] 745945200,
xm 19 14 [1,1,1,2,3] 1783782000,
xm 19 14 [1,1,1,1,4] 591891300,
xp 19 14 [2,2,3,3] 319666707360,
xp 19 14 [1,3,3,3] 252842990400,
xp 19 14 [2,2,2,4] 231411660480,
xp 19 14 [1,2,3,4] 1650679430400,
xp 19 14 [1,1,4,4] 536496760800,
xp 19 14 [1,2,2,5] 937957980960,
xp 19 14 [1,1,3,5] 1120625906400,
xp 19 14 [1,1,2,6] 1313577064800,
xp 19 14 [1,1,1,7] 633404772000,
xm 19 14 [4,4,4] 49057896888000,
xm 19 14 [3,4,5] 310027798080000,
xm 19 14 [2,5,5] 178063994908800,
xm 19 14 [3,3,6] 169693711387200,
xm 19 14 [2,4,6] 370145532556800,
xm 19 14 [1,5,6] 508060291939200,
xm 19 14 [2,3,7] 417915603705600,
xm 19 14 [1,4,7] 544638590496000,
xm 19 14 [2,2,8] 263632990420800,
xm 19 14 [1,3,8] 629951888966400,
xm 19 14 [1,2,9] 810544832697600,
xm 19 14 [1,1,10] 635290391736000,
xp 19 14 [7,7] 75493022020416000,
xp 19 14 [6,8] 154817693398368000,
xp 19 14 [5,9] 167219116672608000,
xp 19 14 [4,10] 191318411059776000,
xp 19 14 [3,11] 234675101973312000,
xp 19 14 [2,12] 318898523911968000,
xp 19 14 [1,13] 525984825798432000,
xm 15 15 [1,1,2,2] 536215680,
xm 15 15 [1,1,1,3] 410810400,
xp 15 15 [2,3,3] 78301080000,
xp 15 15 [2,2,4] 85880995200,
xp 15 15 [1,3,4] 199783584000,
xp 15 15 [1,2,5] 232734902400,
xp 15 15 [1,1,6] 165534969600,
xm 15 15 [5,5] 14770776384000,
xm 15 15 [4,6] 31020941952000,
xm 15 15 [3,7] 35888396544000,
xm 15 15 [2,8] 47052925920000,
xm 15 15 [1,9] 73969223328000,
xp 15 15 [12] 22667663386368000,
xm 16 15 [1,1,1,1,1] 2702700,
xp 16 15 [1,2,2,2] 3891888000,
xp 16 15 [1,1,2,3] 13729716000,
xp 16 15 [1,1,1,4] 5751345600,
xm 16 15 [3,3,3] 391505400000,
xm 16 15 [2,3,4] 2554375824000,
xm 16 15 [1,4,4] 1642160520000,
xm 16 15 [2,2,5] 1471133664000,
xm 16 15 [1,3,5] 3479347872000,
xm 16 15 [1,2,6] 4186893110400,
xm 16 15 [1,1,7] 3079521244800,
xp 16 15 [5,6] 604145558016000,
xp 16 15 [4,7] 654491021184000,
xp 16 15 [3,8] 773590577760000,
xp 16 15 [2,9] 1021807410624000,
xp 16 15 [1,10] 1634203771200000,
xm 16 15 [13] 566691584659200000,
xp 17 15 [1,1,1,1,2] 67567500,
xm 17 15 [2,2,2,2] 5500535040,
xm 17 15 [1,2,2,3] 78499380960,
xm 17 15 [1,1,3,3] 46815397200,
xm 17 15 [1,1,2,4] 100497196800,
xm 17 15 [1,1,1,5] 44778333600,
xp 17 15 [3,3,4] 10001318184000,
xp 17 15 [2,4,4] 10852313472000,
xp 17 15 [2,3,5] 22913360870400,
xp 17 15 [1,4,5] 29680835184000,
xp 17 15 [2,2,6] 13668310656000,
xp 17 15 [1,3,6] 32638929523200,
xp 17 15 [1,2,7] 40219289510400,
xp 17 15 [1,1,8] 30368531793600,
xm 17 15 [6,6] 3183206330304000,
xm 17 15 [5,7] 6584067794304000,
xm 17 15 [4,8] 7296981243552000,
xm 17 15 [3,9] 8749921628448000,
xm 17 15 [2,10] 11644131923424000,
xm 17 15 [1,11] 18858711519648000,
xp 17 15 [14] 7366990600569600000,
xm 18 15 [1,1,1,2,2] 459459000,
xm 18 15 [1,1,1,1,3] 283783500,
xp 18 15 [2,2,2,3] 103459356000,
xp 18 15 [1,2,3,3] 371165652000,
xp 18 15 [1,2,2,4] 400561761600,
xp 18 15 [1,1,3,4] 481253572800,
xp 18 15 [1,1,2,5] 541339999200,
xp 18 15 [1,1,1,6] 252388936800,
xm 18 15 [3,4,4] 59141562480000,
xm 18 15 [3,3,5] 62276045832000,
xm 18 15 [2,4,5] 135244405296000,
xm 18 15 [1,5,5] 92722285656000,
xm 18 15 [2,3,6] 147988262822400,
xm 18 15 [1,4,6] 192717212688000,
xm 18 15 [2,2,7] 90638958009600,
xm 18 15 [1,3,7] 217430182569600,
xm 18 15 [1,2,8] 273038516150400,
xm 18 15 [1,1,9] 210279357288000,
xp 18 15 [6,7] 47727499083264000,
xp 18 15 [5,8] 50575014506016000,
xp 18 15 [4,9] 56998970028000000,
xp 18 15 [3,10] 69060877966080000,
xp 18 15 [2,11] 92561301600768000,
xp 18 15 [1,12] 151229216986848000,
xm 18 15 [15] 66302915405126400000,
xp 19 15 [1,1,2,2,2] 1216215000,
xp 19 15 [1,1,1,2,3] 2972970000,
xp 19 15 [1,1,1,1,4] 1013512500,
xm 19 15 [2,2,3,3] 575005139280,
xm 19 15 [1,3,3,3] 458343943200,
xm 19 15 [2,2,2,4] 415290395520,
xm 19 15 [1,2,3,4] 2983607827200,
xm 19 15 [1,1,4,4] 973847674800,
xm 19 15 [1,2,2,5] 1688495608800,
xm 19 15 [1,1,3,5] 2032170940800,
xm 19 15 [1,1,2,6] 2368754388000,
xm 19 15 [1,1,1,7] 1141555615200,
xp 19 15 [4,4,4] 91103044032000,
xp 19 15 [3,4,5] 574777371168000,
xp 19 15 [2,5,5] 328688752392000,
xp 19 15 [3,3,6] 313435275753600,
xp 19 15 [2,4,6] 681847620854400,
xp 19 15 [1,5,6] 936084685536000,
xp 19 15 [2,3,7] 765455753462400,
xp 19 15 [1,4,7] 999460189728000,
xp 19 15 [2,2,8] 478560170088000,
xp 19 15 [1,3,8] 1148972515891200,
xp 19 15 [1,2,9] 1465703701862400,
xp 19 15 [1,1,10] 1144895503752000,
xm 19 15 [7,7] 138417985689984000,
xm 19 15 [6,8] 283836933027648000,
xm 19 15 [5,9] 306292893274368000,
xm 19 15 [4,10] 349556287848768000,
xm 19 15 [3,11] 426919393188288000,
xm 19 15 [2,12] 575958777121728000,
xm 19 15 [1,13] 946269351675648000,
xp 16 16 [1,1,1,1,1] 540540,
xm 16 16 [1,2,2,2] 934053120,
xm 16 16 [1,1,2,3] 3264861600,
xm 16 16 [1,1,1,4] 1362160800,
xp 16 16 [3,3,3] 99150480000,
xp 16 16 [2,3,4] 648648000000,
xp 16 16 [1,4,4] 413188776000,
xp 16 16 [2,2,5] 372687194880,
xp 16 16 [1,3,5] 871004534400,
xp 16 16 [1,2,6] 1042870308480,
xp 16 16 [1,1,7] 756894378240,
xm 16 16 [5,6] 155351714918400,
xm 16 16 [4,7] 168297691161600,
xm 16 16 [3,8] 198128234304000,
xm 16 16 [2,9] 261128560492800,
xm 16 16 [1,10] 411819350342400,
xp 16 16 [13] 145720693198080000,
xm 17 16 [1,1,1,1,2] 29729700,
xp 17 16 [2,2,2,2] 2802159360,
xp 17 16 [1,2,2,3] 39826987200,
xp 17 16 [1,1,3,3] 23598432000,
xp 17 16 [1,1,2,4] 50767516800,
xp 17 16 [1,1,1,5] 22508085600,
xm 17 16 [3,3,4] 5325400080000,
xm 17 16 [2,4,4] 5780102328000,
xm 17 16 [2,3,5] 12177717552000,
xm 17 16 [1,4,5] 15670297843200,
xm 17 16 [2,2,6] 7228170069120,
xm 17 16 [1,3,6] 17141431507200,
xm 17 16 [1,2,7] 21014949795840,
xm 17 16 [1,1,8] 15694427548800,
xp 17 16 [6,6] 1708868864102400,
xp 17 16 [5,7] 3534251514393600,
xp 17 16 [4,8] 3911363007552000,
xp 17 16 [3,9] 4673822785632000,
xp 17 16 [2,10] 6196900700390400,
xp 17 16 [1,11] 9929422113811200,
xm 17 16 [14] 3934458716348160000,
xp 18 16 [1,1,1,2,2] 329729400,
xp 18 16 [1,1,1,1,3] 205405200,
xm 18 16 [2,2,2,3] 83247484320,
xm 18 16 [1,2,3,3] 298544875200,
xm 18 16 [1,2,2,4] 322140218400,
xm 18 16 [1,1,3,4] 386032046400,
xm 18 16 [1,1,2,5] 434810376000,
xm 18 16 [1,1,1,6] 201859257600,
xp 18 16 [3,4,4] 49486653216000,
xp 18 16 [3,3,5] 52061007398400,
xp 18 16 [2,4,5] 112946741107200,
xp 18 16 [1,5,5] 77079231028800,
xp 18 16 [2,3,6] 123174207636480,
xp 18 16 [1,4,6] 159814153699200,
xp 18 16 [2,2,7] 74997615813120,
xp 18 16 [1,3,7] 179435340564480,
xp 18 16 [1,2,8] 224129782356480,
xp 18 16 [1,1,9] 171247353076800,
xm 18 16 [6,7] 40041904520217600,
xm 18 16 [5,8] 42404784924902400,
xm 18 16 [4,9] 47689911228960000,
xm 18 16 [3,10] 57591749197382400,
xm 18 16 [2,11] 76840261321824000,
xm 18 16 [1,12] 124598232331372800,
xp 18 16 [15] 55082422028874240000,
xm 19 16 [1,1,2,2,2] 1248647400,
xm 19 16 [1,1,1,2,3] 3091888800,
xm 19 16 [1,1,1,1,4] 1070269200,
xp 19 16 [2,2,3,3] 649000123200,
xp 19 16 [1,3,3,3] 519242724000,
xp 19 16 [2,2,2,4] 468453585600,
xp 19 16 [1,2,3,4] 3375477705600,
xp 19 16 [1,1,4,4] 1102052952000,
xp 19 16 [1,2,2,5] 1910073765600,
xp 19 16 [1,1,3,5] 2302657156800,
xp 19 16 [1,1,2,6] 2683391911200,
xp 19 16 [1,1,1,7] 1290744655200,
xm 19 16 [4,4,4] 106248542400000,
xm 19 16 [3,4,5] 669961535443200,
xm 19 16 [2,5,5] 382339466308800,
xm 19 16 [3,3,6] 364539138163200,
xm 19 16 [2,4,6] 791834970326400,
xm 19 16 [1,5,6] 1085871000614400,
xm 19 16 [2,3,7] 885407166483840,
xm 19 16 [1,4,7] 1155454066166400,
xm 19 16 [2,2,8] 550239951381120,
xm 19 16 [1,3,8] 1322450309980800,
xm 19 16 [1,2,9] 1677856743763200,
xm 19 16 [1,1,10] 1304696684491200,
xp 19 16 [7,7] 161060890441651200,
xp 19 16 [6,8] 330181370315596800,
xp 19 16 [5,9] 355895075888352000,
xp 19 16 [4,10] 405177602173344000,
xp 19 16 [3,11] 493228845408499200,
xp 19 16 [2,12] 662159757644985600,
xp 19 16 [1,13] 1082947618283731200,
xp 17 17 [1,1,1,1,2] 5405400,
xm 17 17 [2,2,2,2] 588107520,
xm 17 17 [1,2,2,3] 8302694400,
xm 17 17 [1,1,3,3] 4880304000,
xm 17 17 [1,1,2,4] 10551340800,
xm 17 17 [1,1,1,5] 4670265600,
xp 17 17 [3,3,4] 1165797360000,
xp 17 17 [2,4,4] 1268836732800,
xp 17 17 [2,3,5] 2666532960000,
xp 17 17 [1,4,5] 3408208876800,
xp 17 17 [2,2,6] 1579898960640,
xp 17 17 [1,3,6] 3711304396800,
xp 17 17 [1,2,7] 4536868976640,
xp 17 17 [1,1,8] 3354980428800,
xm 17 17 [6,6] 379859285836800,
xm 17 17 [5,7] 785127690547200,
xm 17 17 [4,8] 867896213184000,
xm 17 17 [3,9] 1033363723392000,
xm 17 17 [2,10] 1368038069798400,
xm 17 17 [1,11] 2168211280435200,
xp 17 17 [14] 874324159188480000,
xm 18 17 [1,1,1,2,2] 129729600,
xm 18 17 [1,1,1,1,3] 81081000,
xp 18 17 [2,2,2,3] 36670233600,
xp 18 17 [1,2,3,3] 131073228000,
xp 18 17 [1,2,2,4] 141716615040,
xp 18 17 [1,1,3,4] 168907939200,
xp 18 17 [1,1,2,5] 191091700800,
xp 18 17 [1,1,1,6] 88475587200,
xm 18 17 [3,4,4] 22665346704000,
xm 18 17 [3,3,5] 23824841040000,
xm 18 17 [2,4,5] 51729418540800,
xm 18 17 [1,5,5] 35105112806400,
xm 18 17 [2,3,6] 56264765356800,
xm 18 17 [1,4,6] 72655840857600,
xm 18 17 [2,2,7] 34149293418240,
xm 18 17 [1,3,7] 81252589017600,
xm 18 17 [1,2,8] 101185715030400,
xm 18 17 [1,1,9] 76702453027200,
xp 18 17 [6,7] 18512746027776000,
xp 18 17 [5,8] 19587981276864000,
xp 18 17 [4,9] 21987781687872000,
xp 18 17 [3,10] 26474101093440000,
xp 18 17 [2,11] 35233433307072000,
xp 18 17 [1,12] 56669158465920000,
xm 18 17 [15] 25355400616465920000,
xp 19 17 [1,1,2,2,2] 789188400,
xp 19 17 [1,1,1,2,3] 1967565600,
xp 19 17 [1,1,1,1,4] 686485800,
xm 19 17 [2,2,3,3] 449800322400,
xm 19 17 [1,3,3,3] 359953308000,
xm 19 17 [2,2,2,4] 324894810240,
xm 19 17 [1,2,3,4] 2340278740800,
xm 19 17 [1,1,4,4] 762565003200,
xm 19 17 [1,2,2,5] 1327341375360,
xm 19 17 [1,1,3,5] 1596668673600,
xm 19 17 [1,1,2,6] 1866160296000,
xm 19 17 [1,1,1,7] 895696401600,
xp 19 17 [4,4,4] 76156621632000,
xp 19 17 [3,4,5] 480146326732800,
xp 19 17 [2,5,5] 273891570825600,
xp 19 17 [3,3,6] 260885494396800,
xp 19 17 [2,4,6] 566510010393600,
xp 19 17 [1,5,6] 774863437420800,
xp 19 17 [2,3,7] 631714447203840,
xp 19 17 [1,4,7] 822395891116800,
xp 19 17 [2,2,8] 391127531034240,
xp 19 17 [1,3,8] 938086932182400,
xp 19 17 [1,2,9] 1186350986620800,
xp 19 17 [1,1,10] 917505071683200,
xm 19 17 [7,7] 116014646882534400,
xm 19 17 [6,8] 237735788555865600,
xm 19 17 [5,9] 255937627737792000,
xm 19 17 [4,10] 290746066875264000,
xm 19 17 [3,11] 352992372455923200,
xm 19 17 [2,12] 472423671489369600,
xm 19 17 [1,13] 768433788797875200,
xp 18 18 [1,1,1,2,2] 21621600,
xp 18 18 [1,1,1,1,3] 13513500,
xm 18 18 [2,2,2,3] 6832425600,
xm 18 18 [1,2,3,3] 24277968000,
xm 18 18 [1,2,2,4] 26343757440,
xm 18 18 [1,1,3,4] 31178347200,
xm 18 18 [1,1,2,5] 35481045600,
xm 18 18 [1,1,1,6] 16410794400,
xp 18 18 [3,4,4] 4389689304000,
xp 18 18 [3,3,5] 4608644040000]
def extB6_2 : PL := [
xp 18 18 [2,4,5] 10030952131200,
xp 18 18 [1,5,5] 6761270880000,
xp 18 18 [2,3,6] 10885351276800,
xp 18 18 [1,4,6] 13979402236800,
xp 18 18 [2,2,7] 6600564210240,
xp 18 18 [1,3,7] 15580870905600,
xp 18 18 [1,2,8] 19374337382400,
xp 18 18 [1,1,9] 14574039480000,
xm 18 18 [6,7] 3636432255456000,
xm 18 18 [5,8] 3843465129504000,
xm 18 18 [4,9] 4307990502816000,
xm 18 18 [3,10] 5171865839712000,
xm 18 18 [2,11] 6876729469209600,
xm 18 18 [1,12] 10963747392998400,
xp 18 18 [15] 4980525121091520000,
xm 19 18 [1,1,2,2,2] 281080800,
xm 19 18 [1,1,1,2,3] 702702000,
xm 19 18 [1,1,1,1,4] 245945700,
xp 19 18 [2,2,3,3] 175320288000,
xp 19 18 [1,3,3,3] 139922640000,
xp 19 18 [2,2,2,4] 126858251520,
xp 19 18 [1,2,3,4] 911047737600,
xp 19 18 [1,1,4,4] 295942046400,
xp 19 18 [1,2,2,5] 518632994880,
xp 19 18 [1,1,3,5] 620950730400,
xp 19 18 [1,1,2,6] 729210081600,
xp 19 18 [1,1,1,7] 349383434400,
xm 19 18 [4,4,4] 30727825128000,
xm 19 18 [3,4,5] 193690184688000,
xm 19 18 [2,5,5] 110562381820800,
xm 19 18 [3,3,6] 105121840824000,
xm 19 18 [2,4,6] 228476139091200,
xm 19 18 [1,5,6] 311242845513600,
xm 19 18 [2,3,7] 254257821417600,
xm 19 18 [1,4,7] 329756124297600,
xm 19 18 [2,2,8] 157131475300800,
xm 19 18 [1,3,8] 375107949216000,
xm 19 18 [1,2,9] 473575050748800,
xm 19 18 [1,1,10] 364064284584000,
xp 19 18 [7,7] 47273619320928000,
xp 19 18 [6,8] 96824600256384000,
xp 19 18 [5,9] 104110821726912000,
xp 19 18 [4,10] 118054880431488000,
xp 19 18 [3,11] 142992829980000000,
xp 19 18 [2,12] 191056019970816000,
xp 19 18 [1,13] 308789087967360000,
xp 19 19 [1,1,2,2,2] 43243200,
xp 19 19 [1,1,1,2,3] 108108000,
xp 19 19 [1,1,1,1,4] 37837800,
xm 19 19 [2,2,3,3] 29467152000,
xm 19 19 [1,3,3,3] 23397660000,
xm 19 19 [2,2,2,4] 21379438080,
xm 19 19 [1,2,3,4] 152734982400,
xm 19 19 [1,1,4,4] 49441392000,
xm 19 19 [1,2,2,5] 87333966720,
xm 19 19 [1,1,3,5] 103913409600,
xm 19 19 [1,1,2,6] 122724201600,
xm 19 19 [1,1,1,7] 58745887200,
xp 19 19 [4,4,4] 5351079888000,
xp 19 19 [3,4,5] 33710336352000,
xp 19 19 [2,5,5] 19270822233600,
xp 19 19 [3,3,6] 18275493456000,
xp 19 19 [2,4,6] 39803356454400,
xp 19 19 [1,5,6] 53929712390400,
xp 19 19 [2,3,7] 44218853078400,
xp 19 19 [1,4,7] 57078169948800,
xp 19 19 [2,2,8] 27318718627200,
xp 19 19 [1,3,8] 64772691984000,
xp 19 19 [1,2,9] 81723420979200,
xp 19 19 [1,1,10] 62434964592000,
xm 19 19 [7,7] 8341755204182400,
xm 19 19 [6,8] 17077386598272000,
xm 19 19 [5,9] 18340133011200000,
xm 19 19 [4,10] 20766958692480000,
xm 19 19 [3,11] 25096341606336000,
xm 19 19 [2,12] 33515759435558400,
xm 19 19 [1,13] 53777874870720000]
/-- row 6 -/
def extB6 : PL := extB6_0 ++ extB6_1 ++ extB6_2
def extB7_0 : PL := [
xp 13 13 [1,1,1,1] 1801800,
xm 13 13 [2,2,2] 226100160,
xm 13 13 [1,2,3] 1593820800,
xm 13 13 [1,1,4] 1081080000,
xp 13 13 [4,4] 69621552000,
xp 13 13 [3,5] 147891744000,
xp 13 13 [2,6] 188367379200,
xp 13 13 [1,7] 296821324800,
xm 13 13 [10] 65368150848000,
xm 14 13 [1,1,1,2] 69189120,
xp 14 13 [2,2,3] 8172964800,
xp 14 13 [1,3,3] 10100376000,
xp 14 13 [1,2,4] 22572950400,
xp 14 13 [1,1,5] 16735118400,
xm 14 13 [4,5] 2288430144000,
xm 14 13 [3,6] 2568646080000,
xm 14 13 [2,7] 3339239904000,
xm 14 13 [1,8] 5565399840000,
xp 14 13 [11] 1372731167808000,
xp 15 13 [1,1,2,2] 488648160,
xp 15 13 [1,1,1,3] 410810400,
xm 15 13 [2,3,3] 52559020800,
xm 15 13 [2,2,4] 58304188800,
xm 15 13 [1,3,4] 147150432000,
xm 15 13 [1,2,5] 175394419200,
xm 15 13 [1,1,6] 138551212800,
xp 15 13 [5,5] 9780314544000,
xp 15 13 [4,6] 20479114656000,
xp 15 13 [3,7] 23785662700800,
xp 15 13 [2,8] 31611471091200,
xp 15 13 [1,9] 54540918432000,
xm 15 13 [12] 15100042845888000,
xp 16 13 [1,1,1,1,1] 1801800,
xm 16 13 [1,2,2,2] 1024863840,
xm 16 13 [1,1,2,3] 3904860960,
xm 16 13 [1,1,1,4] 1845043200,
xp 16 13 [3,3,3] 78208416000,
xp 16 13 [2,3,4] 522031910400,
xp 16 13 [1,4,4] 367350984000,
xp 16 13 [2,2,5] 310572662400,
xp 16 13 [1,3,5] 785901916800,
xp 16 13 [1,2,6] 981534153600,
xp 16 13 [1,1,7] 807696489600,
xm 16 13 [5,6] 120959879040000,
xm 16 13 [4,7] 131000950080000,
xm 16 13 [3,8] 155831195520000,
xm 16 13 [2,9] 211485193920000,
xm 16 13 [1,10] 372139735968000,
xp 16 13 [13] 115766995151808000,
xm 17 13 [1,1,1,1,2] 18918900,
xp 17 13 [2,2,2,2] 632431800,
xp 17 13 [1,2,2,3] 9496206720,
xp 17 13 [1,1,3,3] 5978372400,
xp 17 13 [1,1,2,4] 13388094720,
xp 17 13 [1,1,1,5] 6767560800,
xm 17 13 [3,3,4] 907736544000,
xm 17 13 [2,4,4] 1014411340800,
xm 17 13 [2,3,5] 2164705171200,
xm 17 13 [1,4,5] 3037488854400,
xm 17 13 [2,2,6] 1352820268800,
xm 17 13 [1,3,6] 3397099305600,
xm 17 13 [1,2,7] 4401725328000,
xm 17 13 [1,1,8] 3707412508800,
xp 17 13 [6,6] 290821330800000,
xp 17 13 [5,7] 601296696000000,
xp 17 13 [4,8] 667762359264000,
xp 17 13 [3,9] 809209136736000,
xp 17 13 [2,10] 1118645367840000,
xp 17 13 [1,11] 1986847742880000,
xm 17 13 [14] 694601970910848000,
xp 18 13 [1,1,1,2,2] 64864800,
xp 18 13 [1,1,1,1,3] 40540500,
xm 18 13 [2,2,2,3] 6538371840,
xm 18 13 [1,2,3,3] 24142678560,
xm 18 13 [1,2,2,4] 27169702560,
xm 18 13 [1,1,3,4] 33599966400,
xm 18 13 [1,1,2,5] 40436716320,
xm 18 13 [1,1,1,6] 21189168000,
xp 18 13 [3,4,4] 2926699776000,
xp 18 13 [3,3,5] 3122183750400,
xp 18 13 [2,4,5] 7000468675200,
xp 18 13 [1,5,5] 5189702918400,
xp 18 13 [2,3,6] 7814132726400,
xp 18 13 [1,4,6] 10859924275200,
xp 18 13 [2,2,7] 5062412234880,
xp 18 13 [1,3,7] 12547446912000,
xp 18 13 [1,2,8] 16739010288000,
xp 18 13 [1,1,9] 14247423590400,
xm 18 13 [6,7] 2396803657248000,
xm 18 13 [5,8] 2540819080800000,
xm 18 13 [4,9] 2876198637312000,
xm 18 13 [3,10] 3539594298240000,
xm 18 13 [2,11] 4969011593145600,
xm 18 13 [1,12] 8844310809734400,
xp 18 13 [15] 3473009854554240000,
xp 19 13 [1,1,1,1,1,1] 45045,
xm 19 13 [1,1,2,2,2] 99099000,
xm 19 13 [1,1,1,2,3] 237837600,
xm 19 13 [1,1,1,1,4] 81981900,
xp 19 13 [2,2,3,3] 21872410560,
xp 19 13 [1,3,3,3] 17578360800,
xp 19 13 [2,2,2,4] 16393497120,
xp 19 13 [1,2,3,4] 118884205440,
xp 19 13 [1,1,4,4] 40551310800,
xp 19 13 [1,2,2,5] 71688576960,
xp 19 13 [1,1,3,5] 86745859200,
xp 19 13 [1,1,2,6] 109807457760,
xp 19 13 [1,1,1,7] 58411473120,
xm 19 13 [4,4,4] 2723086080000,
xm 19 13 [3,4,5] 17448408806400,
xm 19 13 [2,5,5] 10456076030400,
xm 19 13 [3,3,6] 9736132348800,
xm 19 13 [2,4,6] 21853470038400,
xm 19 13 [1,5,6] 31986130176000,
xm 19 13 [2,3,7] 25222807209600,
xm 19 13 [1,4,7] 34562387059200,
xm 19 13 [2,2,8] 16787269699200,
xm 19 13 [1,3,8] 40970683353600,
xm 19 13 [1,2,9] 55902300854400,
xm 19 13 [1,1,10] 47658373963200,
xp 19 13 [7,7] 4262083089264000,
xp 19 13 [6,8] 8740246394880000,
xp 19 13 [5,9] 9447565903776000,
xp 19 13 [4,10] 10858095087840000,
xp 19 13 [3,11] 13540617810720000,
xp 19 13 [2,12] 19244039566752000,
xp 19 13 [1,13] 34154858818080000,
xp 14 14 [1,1,1,2] 69189120,
xm 14 14 [2,2,3] 8172964800,
xm 14 14 [1,3,3] 10100376000,
xm 14 14 [1,2,4] 22572950400,
xm 14 14 [1,1,5] 16735118400,
xp 14 14 [4,5] 2288430144000,
xp 14 14 [3,6] 2568646080000,
xp 14 14 [2,7] 3339239904000,
xp 14 14 [1,8] 5565399840000,
xm 14 14 [11] 1372731167808000,
xm 15 14 [1,1,2,2] 1024863840,
xm 15 14 [1,1,1,3] 843242400,
xp 15 14 [2,3,3] 112030776000,
xp 15 14 [2,2,4] 124929604800,
xp 15 14 [1,3,4] 308756448000,
xp 15 14 [1,2,5] 368950982400,
xp 15 14 [1,1,6] 286832145600,
xm 15 14 [5,5] 20595871296000,
xm 15 14 [4,6] 43153254144000,
xm 15 14 [3,7] 50088598560000,
xm 15 14 [2,8] 66784798080000,
xm 15 14 [1,9] 113534156736000,
xp 15 14 [12] 31572816859584000,
xm 16 14 [1,1,1,1,1] 5405400,
xp 16 14 [1,2,2,2] 3476753280,
xp 16 14 [1,1,2,3] 12834581760,
xp 16 14 [1,1,1,4] 5881075200,
xm 16 14 [3,3,3] 264926376000,
xm 16 14 [2,3,4] 1770030662400,
xm 16 14 [1,4,4] 1214917704000,
xm 16 14 [2,2,5] 1054312459200,
xm 16 14 [1,3,5] 2599521724800,
xm 16 14 [1,2,6] 3250504857600,
xm 16 14 [1,1,7] 2607175771200,
xp 16 14 [5,6] 401456030976000,
xp 16 14 [4,7] 434871781344000,
xp 16 14 [3,8] 517582185120000,
xp 16 14 [2,9] 703466539776000,
xp 16 14 [1,10] 1211031005184000,
xm 16 14 [13] 378873802315008000,
xp 17 14 [1,1,1,1,2] 81081000,
xm 17 14 [2,2,2,2] 3074591520,
xm 17 14 [1,2,2,3] 45119954880,
xm 17 14 [1,1,3,3] 27610783200,
xm 17 14 [1,1,2,4] 61470208800,
xm 17 14 [1,1,1,5] 29967537600,
xp 17 14 [3,3,4] 4337323848000,
xp 17 14 [2,4,4] 4823995176000,
xp 17 14 [2,3,5] 10308832934400,
xp 17 14 [1,4,5] 14070472416000,
xp 17 14 [2,2,6] 6418112500800,
xp 17 14 [1,3,6] 15752027491200,
xp 17 14 [1,2,7] 20343676953600,
xp 17 14 [1,1,8] 16640545521600,
xm 17 14 [6,6] 1348539192000000,
xm 17 14 [5,7] 2788779049056000,
xm 17 14 [4,8] 3097701550944000,
xm 17 14 [3,9] 3758871051936000,
xm 17 14 [2,10] 5184726490944000,
xm 17 14 [1,11] 8988120741600000,
xp 17 14 [14] 3157281685958400000,
xm 18 14 [1,1,1,2,2] 378378000,
xm 18 14 [1,1,1,1,3] 229729500,
xp 18 14 [2,2,2,3] 41682120480,
xp 18 14 [1,2,3,3] 151731740160,
xp 18 14 [1,2,2,4] 168531723360,
xp 18 14 [1,1,3,4] 204626822400,
xp 18 14 [1,1,2,5] 243156513600,
xp 18 14 [1,1,1,6] 122897174400,
xm 18 14 [3,4,4] 18400197816000,
xm 18 14 [3,3,5] 19641302366400,
xm 18 14 [2,4,5] 43638961766400,
xm 18 14 [1,5,5] 31550238720000,
xm 18 14 [2,3,6] 48750567465600,
xm 18 14 [1,4,6] 66035220451200,
xm 18 14 [2,2,7] 31319968680000,
xm 18 14 [1,3,7] 76369739846400,
xm 18 14 [1,2,8] 100999163865600,
xm 18 14 [1,1,9] 83536651598400,
xp 18 14 [6,7] 14528262228480000,
xp 18 14 [5,8] 15404684270976000,
xp 18 14 [4,9] 17447528498400000,
xp 18 14 [3,10] 21496913421984000,
xp 18 14 [2,11] 29991939737760000,
xp 18 14 [1,12] 52131100301280000,
xm 18 14 [15] 20522330958729600000,
xm 19 14 [1,1,1,1,1,1] 270270,
xp 19 14 [1,1,2,2,2] 745945200,
xp 19 14 [1,1,1,2,3] 1783782000,
xp 19 14 [1,1,1,1,4] 591891300,
xm 19 14 [2,2,3,3] 176419283040,
xm 19 14 [1,3,3,3] 141340399200,
xm 19 14 [2,2,2,4] 130352302080,
xm 19 14 [1,2,3,4] 940107168000,
xm 19 14 [1,1,4,4] 313232119200,
xm 19 14 [1,2,2,5] 556358362560,
xm 19 14 [1,1,3,5] 668777709600,
xm 19 14 [1,1,2,6] 829828359360,
xm 19 14 [1,1,1,7] 427809301920,
xp 19 14 [4,4,4] 21588951384000,
xp 19 14 [3,4,5] 138159429408000,
xp 19 14 [2,5,5] 81744437174400,
xp 19 14 [3,3,6] 77042647281600,
xp 19 14 [2,4,6] 170950402022400,
xp 19 14 [1,5,6] 244749160656000,
xp 19 14 [2,3,7] 197164602835200,
xp 19 14 [1,4,7] 264628146182400,
xp 19 14 [2,2,8] 129626724427200,
xp 19 14 [1,3,8] 313563189139200,
xp 19 14 [1,2,9] 422079923865600,
xp 19 14 [1,1,10] 350787151915200,
xm 19 14 [7,7] 32354152294464000,
xm 19 14 [6,8] 66357118507680000,
xm 19 14 [5,9] 71749134737280000,
xm 19 14 [4,10] 82531540387296000,
xm 19 14 [3,11] 102937635440640000,
xm 19 14 [2,12] 144888506354592000,
xm 19 14 [1,13] 251667380764800000,
xp 15 15 [1,1,2,2] 538377840,
xp 15 15 [1,1,1,3] 432432000,
xm 15 15 [2,3,3] 60324264000,
xm 15 15 [2,2,4] 68108040000,
xm 15 15 [1,3,4] 163459296000,
xm 15 15 [1,2,5] 196151155200,
xm 15 15 [1,1,6] 149837688000,
xp 15 15 [5,5] 11078082288000,
xp 15 15 [4,6] 23265706464000,
xp 15 15 [3,7] 26916297408000,
xp 15 15 [2,8] 36124504416000,
xp 15 15 [1,9] 60207507360000,
xm 15 15 [12] 17000747539776000,
xp 16 15 [1,1,1,1,1] 5405400,
xm 16 15 [1,2,2,2] 3908567520,
xm 16 15 [1,1,2,3] 14057128800,
xm 16 15 [1,1,1,4] 6270264000,
xp 16 15 [3,3,3] 301621320000,
xp 16 15 [2,3,4] 2015997984000,
xp 16 15 [1,4,4] 1353079728000,
xp 16 15 [2,2,5] 1201425825600,
xp 16 15 [1,3,5] 2895564672000,
xp 16 15 [1,2,6] 3621790972800,
xp 16 15 [1,1,7] 2838353918400,
xm 16 15 [5,6] 453109168512000,
xm 16 15 [4,7] 490868265888000,
xm 16 15 [3,8] 584366983200000,
xm 16 15 [2,9] 794739097152000,
xm 16 15 [1,10] 1340047092384000,
xp 16 15 [13] 425018688494400000,
xm 17 15 [1,1,1,1,2] 129729600,
xp 17 15 [2,2,2,2] 5523701040,
xp 17 15 [1,2,2,3] 79739225280,
xp 17 15 [1,1,3,3] 47814624000,
xp 17 15 [1,1,2,4] 105729624000,
xp 17 15 [1,1,1,5] 50054004000,
xm 17 15 [3,3,4] 7811019216000,
xm 17 15 [2,4,4] 8640640008000,
xm 17 15 [2,3,5] 18484132867200,
xm 17 15 [1,4,5] 24682353696000,
xm 17 15 [2,2,6] 11451491251200,
xm 17 15 [1,3,6] 27647972352000,
xm 17 15 [1,2,7] 35541499593600,
xm 17 15 [1,1,8] 28383539184000,
xp 17 15 [6,6] 2387404747728000,
xp 17 15 [5,7] 4938050845728000,
xp 17 15 [4,8] 5485258082304000,
xp 17 15 [3,9] 6661783608480000,
xp 17 15 [2,10] 9154981547712000,
xp 17 15 [1,11] 15557619901824000,
xm 17 15 [14] 5525242950427200000,
xp 18 15 [1,1,1,2,2] 871350480,
xp 18 15 [1,1,1,1,3] 518918400,
xm 18 15 [2,2,2,3] 104708466720,
xm 18 15 [1,2,3,3] 377364873600,
xm 18 15 [1,2,2,4] 414782596800,
xm 18 15 [1,1,3,4] 497559348000,
xm 18 15 [1,1,2,5] 584107524000,
xm 18 15 [1,1,1,6] 287156469600,
xp 18 15 [3,4,4] 46372494168000,
xp 18 15 [3,3,5] 49481464032000,
xp 18 15 [2,4,5] 109081836864000,
xp 18 15 [1,5,5] 77397976656000,
xp 18 15 [2,3,6] 121826213308800,
xp 18 15 [1,4,6] 162019297440000,
xp 18 15 [2,2,7] 77624484537600,
xp 18 15 [1,3,7] 187322796460800,
xp 18 15 [1,2,8] 245545440940800,
xp 18 15 [1,1,9] 198684774288000,
xm 18 15 [6,7] 35795624312448000,
xm 18 15 [5,8] 37960479228672000,
xm 18 15 [4,9] 43009409963520000,
xm 18 15 [3,10] 52998088407264000,
xm 18 15 [2,11] 73441117477728000,
xm 18 15 [1,12] 125376113326464000,
xp 18 15 [15] 49727186553844800000,
xp 19 15 [1,1,1,1,1,1] 675675,
xm 19 15 [1,1,2,2,2] 2300538240,
xm 19 15 [1,1,1,2,3] 5481075600,
xm 19 15 [1,1,1,1,4] 1775673900,
xp 19 15 [2,2,3,3] 582852853440,
xp 19 15 [1,3,3,3] 465682932000,
xp 19 15 [2,2,2,4] 426358183680,
xp 19 15 [1,2,3,4] 3062878790400,
xp 19 15 [1,1,4,4] 1005080076000,
xp 19 15 [1,2,2,5] 1785987403200,
xp 19 15 [1,1,3,5] 2138592456000,
xp 19 15 [1,1,2,6] 2610159552000,
xp 19 15 [1,1,1,7] 1315198684800,
xm 19 15 [4,4,4] 71313658416000,
xm 19 15 [3,4,5] 455432625648000,
xm 19 15 [2,5,5] 266656598208000,
xm 19 15 [3,3,6] 253480611384000,
xm 19 15 [2,4,6] 557747247657600,
xm 19 15 [1,5,6] 786157484112000,
xm 19 15 [2,3,7] 641991055305600,
xm 19 15 [1,4,7] 850162695782400,
xm 19 15 [2,2,8] 417614760763200,
xm 19 15 [1,3,8] 1005325264944000,
xm 19 15 [1,2,9] 1337254273555200,
xm 19 15 [1,1,10] 1091096638632000,
xp 19 15 [7,7] 103813489267488000,
xp 19 15 [6,8] 212936136469056000,
xp 19 15 [5,9] 230287340739456000,
xp 19 15 [4,10] 265006429912224000,
xp 19 15 [3,11] 330141845857824000,
xp 19 15 [2,12] 460551306799584000,
xp 19 15 [1,13] 787718901793824000,
xm 16 16 [1,1,1,1,1] 1801800,
xp 16 16 [1,2,2,2] 1456678080,
xp 16 16 [1,1,2,3] 5127408000,
xp 16 16 [1,1,1,4] 2234232000,
xm 16 16 [3,3,3] 114903360000,
xm 16 16 [2,3,4] 767999232000,
xm 16 16 [1,4,4] 505513008000,
xm 16 16 [2,2,5] 457686028800,
xm 16 16 [1,3,5] 1081944864000,
xm 16 16 [1,2,6] 1352820268800,
xm 16 16 [1,1,7] 1038874636800,
xp 16 16 [5,6] 172613016576000,
xp 16 16 [4,7] 186997434624000,
xp 16 16 [3,8] 222615993600000,
xp 16 16 [2,9] 302757751296000,
xp 16 16 [1,10] 501155823168000,
xm 16 16 [13] 161911881331200000,
xp 17 16 [1,1,1,1,2] 91891800,
xm 17 16 [2,2,2,2] 4370034240,
xm 17 16 [1,2,2,3] 62149744800,
xm 17 16 [1,1,3,3] 36710388000,
xm 17 16 [1,1,2,4] 80691811200,
xm 17 16 [1,1,1,5] 37297260000,
xp 17 16 [3,3,4] 6252966720000,
xp 17 16 [2,4,4] 6892533648000,
xp 17 16 [2,3,5] 14734687968000,
xp 17 16 [1,4,5] 19342683360000,
xp 17 16 [2,2,6] 9093007123200,
xp 17 16 [1,3,6] 21662248608000,
xp 17 16 [1,2,7] 27715691203200,
xp 17 16 [1,1,8] 21705059376000,
xm 17 16 [6,6] 1898743182336000,
xm 17 16 [5,7] 3926946127104000,
xm 17 16 [4,8] 4363273474560000,
xm 17 16 [3,9] 5298260647680000,
xm 17 16 [2,10] 7255864744128000,
xm 17 16 [1,11] 12125791982304000,
xp 17 16 [14] 4371620795942400000,
xm 18 16 [1,1,1,2,2] 992431440,
xm 18 16 [1,1,1,1,3] 583783200,
xp 18 16 [2,2,2,3] 129972379680,
xp 18 16 [1,2,3,3] 464246640000,
xp 18 16 [1,2,2,4] 506739261600,
xp 18 16 [1,1,3,4] 602316000000,
xp 18 16 [1,1,2,5] 699783084000,
xp 18 16 [1,1,1,6] 336713176800,
xm 18 16 [3,4,4] 58323833568000]
def extB7_1 : PL := [
xm 18 16 [3,3,5] 62145667584000,
xm 18 16 [2,4,5] 136306890720000,
xm 18 16 [1,5,5] 95269526352000,
xm 18 16 [2,3,6] 152015588524800,
xm 18 16 [1,4,6] 199443692448000,
xm 18 16 [2,2,7] 96212920003200,
xm 18 16 [1,3,7] 230244872457600,
xm 18 16 [1,2,8] 299529819388800,
xm 18 16 [1,1,9] 238199113152000,
xp 18 16 [6,7] 44491005022464000,
xp 18 16 [5,8] 47185686003456000,
xp 18 16 [4,9] 53472361662720000,
xp 18 16 [3,10] 65829168332928000,
xp 18 16 [2,11] 90698309301600000,
xp 18 16 [1,12] 152601948154656000,
xm 18 16 [15] 61202691143193600000,
xm 19 16 [1,1,1,1,1,1] 900900,
xp 19 16 [1,1,2,2,2] 3729726000,
xp 19 16 [1,1,1,2,3] 8854045200,
xp 19 16 [1,1,1,1,4] 2828826000,
xm 19 16 [2,2,3,3] 1012280068800,
xm 19 16 [1,3,3,3] 805620816000,
xm 19 16 [2,2,2,4] 735390770400,
xm 19 16 [1,2,3,4] 5263061918400,
xm 19 16 [1,1,4,4] 1709079372000,
xm 19 16 [1,2,2,5] 3036386152800,
xm 19 16 [1,1,3,5] 3622590972000,
xm 19 16 [1,1,2,6] 4365336175200,
xm 19 16 [1,1,1,7] 2161705946400,
xp 19 16 [4,4,4] 125106901920000,
xp 19 16 [3,4,5] 797305148640000,
xp 19 16 [2,5,5] 463325374512000,
xp 19 16 [3,3,6] 442608854688000,
xp 19 16 [2,4,6] 968636436768000,
xp 19 16 [1,5,6] 1349302002048000,
xp 19 16 [2,3,7] 1112069633875200,
xp 19 16 [1,4,7] 1458605676528000,
xp 19 16 [2,2,8] 717268731379200,
xp 19 16 [1,3,8] 1719708550560000,
xp 19 16 [1,2,9] 2266230814848000,
xp 19 16 [1,1,10] 1822853960928000,
xm 19 16 [7,7] 178956544935168000,
xm 19 16 [6,8] 367075964166912000,
xm 19 16 [5,9] 397057886184960000,
xm 19 16 [4,10] 456877502040960000,
xm 19 16 [3,11] 568081914944544000,
xm 19 16 [2,12] 786803747681952000,
xm 19 16 [1,13] 1329566398864704000,
xm 17 17 [1,1,1,1,2] 24324300,
xp 17 17 [2,2,2,2] 1289141568,
xp 17 17 [1,2,2,3] 18034267680,
xp 17 17 [1,1,3,3] 10529719200,
xp 17 17 [1,1,2,4] 23044301280,
xp 17 17 [1,1,1,5] 10443232800,
xm 17 17 [3,3,4] 1872587808000,
xm 17 17 [2,4,4] 2063081966400,
xm 17 17 [2,3,5] 4396772016000,
xm 17 17 [1,4,5] 5695318137600,
xm 17 17 [2,2,6] 2708909723520,
xm 17 17 [1,3,6] 6371799033600,
xm 17 17 [1,2,7] 8118737827200,
xm 17 17 [1,1,8] 6256858608000,
xp 17 17 [6,6] 569788928755200,
xp 17 17 [5,7] 1177691535820800,
xp 17 17 [4,8] 1309635879552000,
xp 17 17 [3,9] 1587890304000000,
xp 17 17 [2,10] 2169719776224000,
xp 17 17 [1,11] 3572620859808000,
xm 17 17 [14] 1311486238782720000,
xp 18 17 [1,1,1,2,2] 559999440,
xp 18 17 [1,1,1,1,3] 327026700,
xm 18 17 [2,2,2,3] 79885634400,
xm 18 17 [1,2,3,3] 282671532000,
xm 18 17 [1,2,2,4] 307446179040,
xm 18 17 [1,1,3,4] 362529367200,
xm 18 17 [1,1,2,5] 417755257920,
xm 18 17 [1,1,1,6] 197643045600,
xp 18 17 [3,4,4] 36531639144000,
xp 18 17 [3,3,5] 38837150352000,
xp 18 17 [2,4,5] 84998833920000,
xp 18 17 [1,5,5] 58643251430400,
xp 18 17 [2,3,6] 94568986512000,
xp 18 17 [1,4,6] 122761563724800,
xp 18 17 [2,2,7] 59572039887360,
xp 18 17 [1,3,7] 141371274844800,
xp 18 17 [1,2,8] 182848682016000,
xp 18 17 [1,1,9] 143351208000000,
xm 18 17 [6,7] 27769119041664000,
xm 18 17 [5,8] 29452095953280000,
xm 18 17 [4,9] 33379042080384000,
xm 18 17 [3,10] 41018514657120000,
xm 18 17 [2,11] 56281977880128000,
xm 18 17 [1,12] 93504111468768000,
xp 18 17 [15] 38033100924698880000,
xp 19 17 [1,1,1,1,1,1] 675675,
xm 19 17 [1,1,2,2,2] 3358915560,
xm 19 17 [1,1,1,2,3] 7945938000,
xm 19 17 [1,1,1,1,4] 2521619100,
xp 19 17 [2,2,3,3] 976522884480,
xp 19 17 [1,3,3,3] 772966022400,
xp 19 17 [2,2,2,4] 706407324480,
xp 19 17 [1,2,3,4] 5032863538560,
xp 19 17 [1,1,4,4] 1621782162000,
xp 19 17 [1,2,2,5] 2883253332960,
xp 19 17 [1,1,3,5] 3424904683200,
xp 19 17 [1,1,2,6] 4088687803200,
xp 19 17 [1,1,1,7] 1997122327200,
xm 19 17 [4,4,4] 122703032088000,
xm 19 17 [3,4,5] 780498867657600,
xm 19 17 [2,5,5] 451378233633600,
xm 19 17 [3,3,6] 432042449529600,
xm 19 17 [2,4,6] 942759863136000,
xm 19 17 [1,5,6] 1300608963763200,
xm 19 17 [2,3,7] 1079283072067200,
xm 19 17 [1,4,7] 1404751287139200,
xm 19 17 [2,2,8] 691692177496320,
xm 19 17 [1,3,8] 1650616641273600,
xm 19 17 [1,2,9] 2160336434256000,
xm 19 17 [1,1,10] 1717204120632000,
xp 19 17 [7,7] 174021970323801600,
xp 19 17 [6,8] 356954303023718400,
xp 19 17 [5,9] 386158202381952000,
xp 19 17 [4,10] 444109496646816000,
xp 19 17 [3,11] 550955459422368000,
xp 19 17 [2,12] 759049939327680000,
xp 19 17 [1,13] 1269389149636608000,
xm 18 18 [1,1,1,2,2] 125405280,
xm 18 18 [1,1,1,1,3] 72972900,
xp 18 18 [2,2,2,3] 19477972800,
xp 18 18 [1,2,3,3] 68200704000,
xp 18 18 [1,2,2,4] 74127493440,
xp 18 18 [1,1,3,4] 86745859200,
xp 18 18 [1,1,2,5] 99359900640,
xp 18 18 [1,1,1,6] 46378332000,
xm 18 18 [3,4,4] 9106801704000,
xm 18 18 [3,3,5] 9653828184000,
xm 18 18 [2,4,5] 21135286972800,
xm 18 18 [1,5,5] 14411165932800,
xm 18 18 [2,3,6] 23443176556800,
xm 18 18 [1,4,6] 30161872540800,
xm 18 18 [2,2,7] 14726047976640,
xm 18 18 [1,3,7] 34626905913600,
xm 18 18 [1,2,8] 44604149990400,
xm 18 18 [1,1,9] 34547641128000,
xp 18 18 [6,7] 6942279760416000,
xp 18 18 [5,8] 7363023988320000,
xp 18 18 [4,9] 8344760520096000,
xp 18 18 [3,10] 10230115607712000,
xp 18 18 [2,11] 14001857911641600,
xp 18 18 [1,12] 22991487149030400,
xm 18 18 [15] 9508275231174720000,
xm 19 18 [1,1,1,1,1,1] 270270,
xp 19 18 [1,1,2,2,2] 1595674080,
xp 19 18 [1,1,1,2,3] 3762158400,
xp 19 18 [1,1,1,1,4] 1191890700,
xm 19 18 [2,2,3,3] 496771704000,
xm 19 18 [1,3,3,3] 390578760000,
xm 19 18 [2,2,2,4] 358728289920,
xm 19 18 [1,2,3,4] 2540883945600,
xm 19 18 [1,1,4,4] 813815402400,
xm 19 18 [1,2,2,5] 1449650442240,
xm 19 18 [1,1,3,5] 1713014503200,
xm 19 18 [1,1,2,6] 2031799049280,
xm 19 18 [1,1,1,7] 981365505120,
xp 19 18 [4,4,4] 63747611928000,
xp 19 18 [3,4,5] 404752460112000,
xp 19 18 [2,5,5] 233451080553600,
xp 19 18 [3,3,6] 223407992808000,
xp 19 18 [2,4,6] 487076010220800,
xp 19 18 [1,5,6] 666178360848000,
xp 19 18 [2,3,7] 555902492745600,
xp 19 18 [1,4,7] 718641530006400,
xp 19 18 [2,2,8] 354703169620800,
xp 19 18 [1,3,8] 841488455808000,
xp 19 18 [1,2,9] 1096120676851200,
xp 19 18 [1,1,10] 862314856603200,
xm 19 18 [7,7] 90249636885408000,
xm 19 18 [6,8] 185127460277760000,
xm 19 18 [5,9] 200274252482304000,
xm 19 18 [4,10] 230161259135808000,
xm 19 18 [3,11] 284841717320160000,
xm 19 18 [2,12] 391017193414848000,
xm 19 18 [1,13] 647647525324800000,
xp 19 19 [1,1,1,1,1,1] 45045,
xm 19 19 [1,1,2,2,2] 312792480,
xm 19 19 [1,1,1,2,3] 735134400,
xm 19 19 [1,1,1,1,4] 233333100,
xp 19 19 [2,2,3,3] 104223834000,
xp 19 19 [1,3,3,3] 81312660000,
xp 19 19 [2,2,2,4] 75312357120,
xp 19 19 [1,2,3,4] 529426497600,
xp 19 19 [1,1,4,4] 168714546000,
xp 19 19 [1,2,2,5] 301465644480,
xp 19 19 [1,1,3,5] 354140186400,
xp 19 19 [1,1,2,6] 418308770880,
xp 19 19 [1,1,1,7] 200148268320,
xm 19 19 [4,4,4] 13704230232000,
xm 19 19 [3,4,5] 86839497360000,
xm 19 19 [2,5,5] 50031004060800,
xm 19 19 [3,3,6] 47801515608000,
xm 19 19 [2,4,6] 104305751827200,
xm 19 19 [1,5,6] 141479050204800,
xm 19 19 [2,3,7] 118642389465600,
xm 19 19 [1,4,7] 152401577328000,
xm 19 19 [2,2,8] 75506908276800,
xm 19 19 [1,3,8] 177850200528000,
xm 19 19 [1,2,9] 230941001491200,
xm 19 19 [1,1,10] 179999863243200,
xp 19 19 [7,7] 19464095476425600,
xp 19 19 [6,8] 39932942553504000,
xp 19 19 [5,9] 43191013241376000,
xp 19 19 [4,10] 49600179588960000,
xp 19 19 [3,11] 61227329907744000,
xp 19 19 [2,12] 83870354529561600,
xp 19 19 [1,13] 137625099131520000]
/-- row 7 -/
def extB7 : PL := extB7_0 ++ extB7_1
def extB8_0 : PL := [
xm 15 15 [1,1,2,2] 76911120,
xm 15 15 [1,1,1,3] 61776000,
xp 15 15 [2,3,3] 8617752000,
xp 15 15 [2,2,4] 9729720000,
xp 15 15 [1,3,4] 23351328000,
xp 15 15 [1,2,5] 28021593600,
xp 15 15 [1,1,6] 21405384000,
xm 15 15 [5,5] 1582583184000,
xm 15 15 [4,6] 3323672352000,
xm 15 15 [3,7] 3845185344000,
xm 15 15 [2,8] 5160643488000,
xm 15 15 [1,9] 8601072480000,
xp 15 15 [12] 2428678219968000,
xm 16 15 [1,1,1,1,1] 900900,
xp 16 15 [1,2,2,2] 574516800,
xp 16 15 [1,1,2,3] 2122005600,
xp 16 15 [1,1,1,4] 972972000,
xm 16 15 [3,3,3] 43088760000,
xm 16 15 [2,3,4] 287999712000,
xm 16 15 [1,4,4] 198270072000,
xm 16 15 [2,2,5] 171632260800,
xm 16 15 [1,3,5] 424215792000,
xm 16 15 [1,2,6] 530853523200,
xm 16 15 [1,1,7] 426680654400,
xp 16 15 [5,6] 64729881216000,
xp 16 15 [4,7] 70124037984000,
xp 16 15 [3,8] 83480997600000,
xp 16 15 [2,9] 113534156736000,
xp 16 15 [1,10] 196104452544000,
xm 16 15 [13] 60716955499200000,
xp 17 15 [1,1,1,1,2] 23603580,
xm 17 15 [2,2,2,2] 805250160,
xm 17 15 [1,2,2,3] 12088945440,
xm 17 15 [1,1,3,3] 7552116000,
xm 17 15 [1,1,2,4] 16793805600,
xm 17 15 [1,1,1,5] 8345937600,
xp 17 15 [3,3,4] 1115859888000,
xp 17 15 [2,4,4] 1239350112000,
xp 17 15 [2,3,5] 2651154105600,
xp 17 15 [1,4,5] 3689509824000,
xp 17 15 [2,2,6] 1649382134400,
xp 17 15 [1,3,6] 4133185056000,
xp 17 15 [1,2,7] 5337075744000,
xp 17 15 [1,1,8] 4452319872000,
xm 17 15 [6,6] 341057821104000,
xm 17 15 [5,7] 705435835104000,
xm 17 15 [4,8] 783608297472000,
xm 17 15 [3,9] 951683372640000,
xm 17 15 [2,10] 1312523660448000,
xm 17 15 [1,11] 2320569355104000,
xp 17 15 [14] 789320421489600000,
xm 18 15 [1,1,1,2,2] 164324160,
xm 18 15 [1,1,1,1,3] 103603500,
xp 18 15 [2,2,2,3] 15558285600,
xp 18 15 [1,2,3,3] 58498783200,
xp 18 15 [1,2,2,4] 65031595200,
xp 18 15 [1,1,3,4] 81667872000,
xp 18 15 [1,1,2,5] 97167470400,
xp 18 15 [1,1,1,6] 50918868000,
xm 18 15 [3,4,4] 6629614992000,
xm 18 15 [3,3,5] 7079344272000,
xm 18 15 [2,4,5] 15746578848000,
xm 18 15 [1,5,5] 11755447704000,
xm 18 15 [2,3,6] 17600674291200,
xm 18 15 [1,4,6] 24608407824000,
xm 18 15 [2,2,7] 11327729212800,
xm 18 15 [1,3,7] 28480576924800,
xm 18 15 [1,2,8] 37733410915200,
xm 18 15 [1,1,9] 32279319072000,
xp 18 15 [6,7] 5113660616064000,
xp 18 15 [5,8] 5422925604096000,
xp 18 15 [4,9] 6144201423360000,
xp 18 15 [3,10] 7575824640384000,
xp 18 15 [2,11] 10589640437376000,
xp 18 15 [1,12] 18989447821344000,
xm 18 15 [15] 7103883793406400000,
xm 19 15 [1,1,1,1,1,1] 225225,
xp 19 15 [1,1,2,2,2] 436756320,
xp 19 15 [1,1,1,2,3] 1096215120,
xp 19 15 [1,1,1,1,4] 385585200,
xm 19 15 [2,2,3,3] 87602692320,
xm 19 15 [1,3,3,3] 72833904000,
xm 19 15 [2,2,2,4] 65089046880,
xm 19 15 [1,2,3,4] 487079049600,
xm 19 15 [1,1,4,4] 169899444000,
xm 19 15 [1,2,2,5] 289852992000,
xm 19 15 [1,1,3,5] 362844424800,
xm 19 15 [1,1,2,6] 452886033600,
xm 19 15 [1,1,1,7] 245578132800,
xp 19 15 [4,4,4] 10192638456000,
xp 19 15 [3,4,5] 65235826656000,
xp 19 15 [2,5,5] 38792393640000,
xp 19 15 [3,3,6] 36394990632000,
xp 19 15 [2,4,6] 81154426953600,
xp 19 15 [1,5,6] 120948203376000,
xp 19 15 [2,3,7] 93650500944000,
xp 19 15 [1,4,7] 130830225926400,
xp 19 15 [2,2,8] 61917213758400,
xp 19 15 [1,3,8] 155146223232000,
xp 19 15 [1,2,9] 210038189961600,
xp 19 15 [1,1,10] 182452358088000,
xm 19 15 [7,7] 14830498466784000,
xm 19 15 [6,8] 30419448067008000,
xm 19 15 [5,9] 32898191534208000,
xm 19 15 [4,10] 37862730569664000,
xm 19 15 [3,11] 47261173063104000,
xm 19 15 [2,12] 66871618317504000,
xm 19 15 [1,13] 120800342767104000,
xp 16 16 [1,1,1,1,1] 900900,
xm 16 16 [1,2,2,2] 574516800,
xm 16 16 [1,1,2,3] 2122005600,
xm 16 16 [1,1,1,4] 972972000,
xp 16 16 [3,3,3] 43088760000,
xp 16 16 [2,3,4] 287999712000,
xp 16 16 [1,4,4] 198270072000,
xp 16 16 [2,2,5] 171632260800,
xp 16 16 [1,3,5] 424215792000,
xp 16 16 [1,2,6] 530853523200,
xp 16 16 [1,1,7] 426680654400,
xm 16 16 [5,6] 64729881216000,
xm 16 16 [4,7] 70124037984000,
xm 16 16 [3,8] 83480997600000,
xm 16 16 [2,9] 113534156736000,
xm 16 16 [1,10] 196104452544000,
xp 16 16 [13] 60716955499200000,
xm 17 16 [1,1,1,1,2] 48108060,
xp 17 16 [2,2,2,2] 1723550400,
xp 17 16 [1,2,2,3] 25436268000,
xp 17 16 [1,1,3,3] 15660216000,
xp 17 16 [1,1,2,4] 34897262400,
xp 17 16 [1,1,1,5] 17124307200,
xm 17 16 [3,3,4] 2344862520000,
xm 17 16 [2,4,4] 2610808200000,
xm 17 16 [2,3,5] 5580967392000,
xm 17 16 [1,4,5] 7682586912000,
xm 17 16 [2,2,6] 3480515438400,
xm 17 16 [1,3,6] 8604964368000,
xm 17 16 [1,2,7] 11130799680000,
xm 17 16 [1,1,8] 9182909736000,
xp 17 16 [6,6] 712028693376000,
xp 17 16 [5,7] 1472604797664000,
xp 17 16 [4,8] 1636227552960000,
xp 17 16 [3,9] 1986847742880000,
xp 17 16 [2,10] 2745462335616000,
xp 17 16 [1,11] 4804559087328000,
xm 17 16 [14] 1639357798478400000,
xp 18 16 [1,1,1,2,2] 527567040,
xp 18 16 [1,1,1,1,3] 324324000,
xm 18 16 [2,2,2,3] 52484889600,
xm 18 16 [1,2,3,3] 193278571200,
xm 18 16 [1,2,2,4] 214999012800,
xm 18 16 [1,1,3,4] 264370392000,
xm 18 16 [1,1,2,5] 314724009600,
xm 18 16 [1,1,1,6] 161513352000,
xp 18 16 [3,4,4] 21923653752000,
xp 18 16 [3,3,5] 23415544152000,
xp 18 16 [2,4,5] 52116272208000,
xp 18 16 [1,5,5] 38235853656000,
xp 18 16 [2,3,6] 58270903891200,
xp 18 16 [1,4,6] 80048352384000,
xp 18 16 [2,2,7] 37540762459200,
xp 18 16 [1,3,7] 92668188412800,
xp 18 16 [1,2,8] 122884028467200,
xp 18 16 [1,1,9] 103238167032000,
xm 18 16 [6,7] 16684126883424000,
xm 18 16 [5,8] 17694632251296000,
xm 18 16 [4,9] 20052135623520000,
xm 18 16 [3,10] 24734964237984000,
xm 18 16 [2,11] 34612435874016000,
xm 18 16 [1,12] 61086536967456000,
xp 18 16 [15] 22951009178697600000,
xp 19 16 [1,1,1,1,1,1] 900900,
xm 19 16 [1,1,2,2,2] 1991349360,
xm 19 16 [1,1,1,2,3] 4873508640,
xm 19 16 [1,1,1,1,4] 1661259600,
xp 19 16 [2,2,3,3] 412957116000,
xp 19 16 [1,3,3,3] 336648312000,
xp 19 16 [2,2,2,4] 305726335200,
xp 19 16 [1,2,3,4] 2244340612800,
xp 19 16 [1,1,4,4] 764107344000,
xp 19 16 [1,2,2,5] 1332193262400,
xp 19 16 [1,1,3,5] 1632776745600,
xp 19 16 [1,1,2,6] 2032733102400,
xp 19 16 [1,1,1,7] 1074550276800,
xm 19 16 [4,4,4] 47002115160000,
xm 19 16 [3,4,5] 301033644912000,
xm 19 16 [2,5,5] 178701875352000,
xm 19 16 [3,3,6] 168065345448000,
xm 19 16 [2,4,6] 373850869392000,
xm 19 16 [1,5,6] 546199237584000,
xm 19 16 [2,3,7] 431789406048000,
xm 19 16 [1,4,7] 590902760448000,
xm 19 16 [2,2,8] 285004125806400,
xm 19 16 [1,3,8] 701240379840000,
xm 19 16 [1,2,9] 947787592752000,
xm 19 16 [1,1,10] 805777140168000,
xp 19 16 [7,7] 67108704350688000,
xp 19 16 [6,8] 137653486562592000,
xp 19 16 [5,9] 148896707319360000,
xp 19 16 [4,10] 171410773453920000,
xp 19 16 [3,11] 214146062178048000,
xp 19 16 [2,12] 302687222501664000,
xp 19 16 [1,13] 536737886612928000,
xp 17 17 [1,1,1,1,2] 24504480,
xm 17 17 [2,2,2,2] 934794432,
xm 17 17 [1,2,2,3] 13462225920,
xm 17 17 [1,1,3,3] 8142076800,
xm 17 17 [1,1,2,4] 18231333120,
xm 17 17 [1,1,1,5] 8821612800,
xp 17 17 [3,3,4] 1248391872000,
xp 17 17 [2,4,4] 1398595161600,
xp 17 17 [2,3,5] 2980478592000,
xp 17 17 [1,4,5] 4051148774400,
xp 17 17 [2,2,6] 1868728942080,
xp 17 17 [1,3,6] 4533271142400,
xp 17 17 [1,2,7] 5882458982400,
xp 17 17 [1,1,8] 4789616832000,
xm 17 17 [6,6] 379859285836800,
xm 17 17 [5,7] 785127690547200,
xm 17 17 [4,8] 873090586368000,
xm 17 17 [3,9] 1058593536000000,
xm 17 17 [2,10] 1468269234432000,
xm 17 17 [1,11] 2534272925184000,
xp 17 17 [14] 874324159188480000,
xm 18 17 [1,1,1,2,2] 563242680,
xm 18 17 [1,1,1,1,3] 338738400,
xp 18 17 [2,2,2,3] 59082566400,
xp 18 17 [1,2,3,3] 213636852000,
xp 18 17 [1,2,2,4] 237677600160,
xp 18 17 [1,1,3,4] 286875388800,
xp 18 17 [1,1,2,5] 341552090880,
xp 18 17 [1,1,1,6] 171956584800,
xm 18 17 [3,4,4] 24470462016000,
xm 18 17 [3,3,5] 26137919808000,
xm 18 17 [2,4,5] 58191509376000,
xm 18 17 [1,5,5] 41999380113600,
xm 18 17 [2,3,6] 65072367360000,
xm 18 17 [1,4,6] 87928387747200,
xm 18 17 [2,2,7] 41940853194240,
xm 18 17 [1,3,7] 101802968467200,
xm 18 17 [1,2,8] 135036837936000,
xm 18 17 [1,1,9] 111527239824000,
xp 18 17 [6,7] 18512746027776000,
xp 18 17 [5,8] 19634730635520000,
xp 18 17 [4,9] 22252694720256000,
xp 18 17 [3,10] 27454623356160000,
xp 18 17 [2,11] 38436472698624000,
xp 18 17 [1,12] 66788651049120000,
xm 18 17 [15] 25355400616465920000,
xm 19 17 [1,1,1,1,1,1] 1351350,
xp 19 17 [1,1,2,2,2] 3377139480,
xp 19 17 [1,1,1,2,3] 8107791120,
xp 19 17 [1,1,1,1,4] 2691889200,
xm 19 17 [2,2,3,3] 728300121120,
xm 19 17 [1,3,3,3] 585071229600,
xm 19 17 [2,2,2,4] 536930428320,
xm 19 17 [1,2,3,4] 3885601674240,
xm 19 17 [1,1,4,4] 1296755460000,
xm 19 17 [1,2,2,5] 2298406350240,
xm 19 17 [1,1,3,5] 2772018849600,
xm 19 17 [1,1,2,6] 3438288453600,
xm 19 17 [1,1,1,7] 1778787410400,
xp 19 17 [4,4,4] 82150129152000,
xp 19 17 [3,4,5] 526411707494400,
xp 19 17 [2,5,5] 311659666718400,
xp 19 17 [3,3,6] 294021807206400,
xp 19 17 [2,4,6] 651951741168000,
xp 19 17 [1,5,6] 936851599756800,
xp 19 17 [2,3,7] 753433711430400,
xp 19 17 [1,4,7] 1013574510748800,
xp 19 17 [2,2,8] 495933791633280,
xp 19 17 [1,3,8] 1203370991222400,
xp 19 17 [1,2,9] 1621909297008000,
xp 19 17 [1,1,10] 1353808808352000,
xm 19 17 [7,7] 116014646882534400,
xm 19 17 [6,8] 237969535349145600,
xm 19 17 [5,9] 257438801587968000,
xm 19 17 [4,10] 296399838518784000,
xm 19 17 [3,11] 370506679006464000,
xm 19 17 [2,12] 522535398761376000,
xm 19 17 [1,13] 911968671597984000,
xp 18 18 [1,1,1,2,2] 199999800,
xp 18 18 [1,1,1,1,3] 118017900,
xm 18 18 [2,2,2,3] 22155962400,
xm 18 18 [1,2,3,3] 78857064000,
xm 18 18 [1,2,2,4] 87710182560,
xm 18 18 [1,1,3,4] 104172868800,
xm 18 18 [1,1,2,5] 123995551680,
xm 18 18 [1,1,1,6] 61362100800,
xp 18 18 [3,4,4] 9176423256000,
xp 18 18 [3,3,5] 9801719928000,
xp 18 18 [2,4,5] 21821816016000,
xp 18 18 [1,5,5] 15518974161600,
xp 18 18 [2,3,6] 24402137760000,
xp 18 18 [1,4,6] 32488443187200,
xp 18 18 [2,2,7] 15727819947840,
xp 18 18 [1,3,7] 37615356979200,
xp 18 18 [1,2,8] 49886220384000,
xp 18 18 [1,1,9] 40568391864000,
xm 18 18 [6,7] 6942279760416000,
xm 18 18 [5,8] 7363023988320000,
xm 18 18 [4,9] 8344760520096000,
xm 18 18 [3,10] 10295483758560000,
xm 18 18 [2,11] 14413677261984000,
xm 18 18 [1,12] 24691561903008000,
xp 18 18 [15] 9508275231174720000,
xp 19 18 [1,1,1,1,1,1] 900900,
xm 19 18 [1,1,2,2,2] 2528337240,
xm 19 18 [1,1,1,2,3] 5979916800,
xm 19 18 [1,1,1,1,4] 1943241300,
xp 19 18 [2,2,3,3] 568910628000,
xp 19 18 [1,3,3,3] 451737000000,
xp 19 18 [2,2,2,4] 418222284480,
xp 19 18 [1,2,3,4] 2990137550400,
xp 19 18 [1,1,4,4] 981966585600,
xp 19 18 [1,2,2,5] 1762207967520,
xp 19 18 [1,1,3,5] 2098506009600,
xp 19 18 [1,1,2,6] 2592620110080,
xp 19 18 [1,1,1,7] 1317144628800,
xm 19 18 [4,4,4] 64234962792000,
xm 19 18 [3,4,5] 411508777680000,
xm 19 18 [2,5,5] 242953266628800,
xm 19 18 [3,3,6] 229829608008000,
xm 19 18 [2,4,6] 508320270057600,
xm 19 18 [1,5,6] 720119928528000,
xm 19 18 [2,3,7] 587352061296000,
xm 19 18 [1,4,7] 779155977600000,
xm 19 18 [2,2,8] 385575960369600,
xm 19 18 [1,3,8] 924969453408000,
xm 19 18 [1,2,9] 1242854973360000,
xm 19 18 [1,1,10] 1021377357000000,
xp 19 18 [7,7] 90249636885408000,
xp 19 18 [6,8] 185127460277760000,
xp 19 18 [5,9] 200274252482304000,
xp 19 18 [4,10] 230618836191744000,
xp 19 18 [3,11] 288273545239680000,
xp 19 18 [2,12] 405589262734656000,
xp 19 18 [1,13] 698244988240800000,
xm 19 19 [1,1,1,1,1,1] 225225,
xp 19 19 [1,1,2,2,2] 705790800,
xp 19 19 [1,1,1,2,3] 1649419200,
xp 19 19 [1,1,1,1,4] 527026500,
xm 19 19 [2,2,3,3] 166005450000,
xm 19 19 [1,3,3,3] 130508820000,
xm 19 19 [2,2,2,4] 121992998400,
xm 19 19 [1,2,3,4] 861935256000,
xm 19 19 [1,1,4,4] 279460818000,
xm 19 19 [1,2,2,5] 506193105600,
xm 19 19 [1,1,3,5] 596490804000,
xm 19 19 [1,1,2,6] 734269536000,
xm 19 19 [1,1,1,7] 367372605600,
xp 19 19 [4,4,4] 18909109800000,
xp 19 19 [3,4,5] 120968452080000,
xp 19 19 [2,5,5] 71245391616000,
xp 19 19 [3,3,6] 67519017720000,
xp 19 19 [2,4,6] 149179659552000,
xp 19 19 [1,5,6] 208618069968000,
xp 19 19 [2,3,7] 172161557568000,
xp 19 19 [1,4,7] 225764530992000,
xp 19 19 [2,2,8] 112816103400000,
xp 19 19 [1,3,8] 267820272720000,
xp 19 19 [1,2,9] 358863208704000,
xp 19 19 [1,1,10] 291013979256000,
xm 19 19 [7,7] 26541948376944000,
xm 19 19 [6,8] 54454012572960000,
xm 19 19 [5,9] 58896836238240000,
xm 19 19 [4,10] 67844598101280000,
xm 19 19 [3,11] 84739750935840000,
xm 19 19 [2,12] 119005232778432000,
xm 19 19 [1,13] 202389851664000000]
/-- row 8 -/
def extB8 : PL := extB8_0
def extB9_0 : PL := [
xm 17 17 [1,1,1,1,2] 3063060,
xp 17 17 [2,2,2,2] 116849304,
xp 17 17 [1,2,2,3] 1682778240,
xp 17 17 [1,1,3,3] 1017759600,
xp 17 17 [1,1,2,4] 2278916640,
xp 17 17 [1,1,1,5] 1102701600,
xm 17 17 [3,3,4] 156048984000,
xm 17 17 [2,4,4] 174824395200,
xm 17 17 [2,3,5] 372559824000,
xm 17 17 [1,4,5] 506393596800,
xm 17 17 [2,2,6] 233591117760,
xm 17 17 [1,3,6] 566658892800,
xm 17 17 [1,2,7] 735307372800,
xm 17 17 [1,1,8] 598702104000,
xp 17 17 [6,6] 47482410729600,
xp 17 17 [5,7] 98140961318400,
xp 17 17 [4,8] 109136323296000,
xp 17 17 [3,9] 132324192000000,
xp 17 17 [2,10] 183533654304000,
xp 17 17 [1,11] 316784115648000,
xm 17 17 [14] 109290519898560000,
xp 18 17 [1,1,1,2,2] 75212280,
xp 18 17 [1,1,1,1,3] 46203300,
xm 18 17 [2,2,2,3] 7385320800,
xm 18 17 [1,2,3,3] 27243216000,
xm 18 17 [1,2,2,4] 30317807520,
xm 18 17 [1,1,3,4] 37318881600,
xm 18 17 [1,1,2,5] 44445360960,
xm 18 17 [1,1,1,6] 22832409600,
xp 18 17 [3,4,4] 3058807752000,
xp 18 17 [3,3,5] 3267239976000,
xp 18 17 [2,4,5] 7273938672000,
xp 18 17 [1,5,5] 5348833963200,
xp 18 17 [2,3,6] 8134045920000,
xp 18 17 [1,4,6] 11198777990400,
xp 18 17 [2,2,7] 5242606649280,
xp 18 17 [1,3,7] 12965695142400,
xp 18 17 [1,2,8] 17202144960000,
xp 18 17 [1,1,9] 14478472008000,
xm 18 17 [6,7] 2314093253472000,
xm 18 17 [5,8] 2454341329440000,
xm 18 17 [4,9] 2781586840032000,
xm 18 17 [3,10] 3431827919520000,
xm 18 17 [2,11] 4804559087328000,
xm 18 17 [1,12] 8500373769888000,
xp 18 17 [15] 3169425077058240000,
xp 19 17 [1,1,1,1,1,1] 225225,
xm 19 17 [1,1,2,2,2] 462856680,
xm 19 17 [1,1,1,2,3] 1149960240,
xm 19 17 [1,1,1,1,4] 397296900,
xp 19 17 [2,2,3,3] 91576124640,
xp 19 17 [1,3,3,3] 75826951200,
xp 19 17 [2,2,2,4] 67724411040,
xp 19 17 [1,2,3,4] 505159649280,
xp 19 17 [1,1,4,4] 174486312000,
xp 19 17 [1,2,2,5] 299779159680,
xp 19 17 [1,1,3,5] 373015843200,
xp 19 17 [1,1,2,6] 464302238400,
xp 19 17 [1,1,1,7] 249015967200,
xm 19 17 [4,4,4] 10268766144000,
xm 19 17 [3,4,5] 65801463436800,
xm 19 17 [2,5,5] 39056369788800,
xm 19 17 [3,3,6] 36752725900800,
xm 19 17 [2,4,6] 81701697168000,
xm 19 17 [1,5,6] 121152067545600,
xm 19 17 [2,3,7] 94419538012800,
xm 19 17 [1,4,7] 131079566217600,
xm 19 17 [2,2,8] 62314264172160,
xm 19 17 [1,3,8] 155638936252800,
xm 19 17 [1,2,9] 210372113952000,
xm 19 17 [1,1,10] 181482629328000,
xp 19 17 [7,7] 14501830860316800,
xp 19 17 [6,8] 29746191918643200,
xp 19 17 [5,9] 32179850198496000,
xp 19 17 [4,10] 37049979814848000,
xp 19 17 [3,11] 46313334875808000,
xp 19 17 [2,12] 65468717233920000,
xp 19 17 [1,13] 117790893668448000,
xm 18 18 [1,1,1,2,2] 75212280,
xm 18 18 [1,1,1,1,3] 46203300,
xp 18 18 [2,2,2,3] 7385320800,
xp 18 18 [1,2,3,3] 27243216000,
xp 18 18 [1,2,2,4] 30317807520,
xp 18 18 [1,1,3,4] 37318881600,
xp 18 18 [1,1,2,5] 44445360960,
xp 18 18 [1,1,1,6] 22832409600,
xm 18 18 [3,4,4] 3058807752000,
xm 18 18 [3,3,5] 3267239976000,
xm 18 18 [2,4,5] 7273938672000,
xm 18 18 [1,5,5] 5348833963200,
xm 18 18 [2,3,6] 8134045920000,
xm 18 18 [1,4,6] 11198777990400,
xm 18 18 [2,2,7] 5242606649280,
xm 18 18 [1,3,7] 12965695142400,
xm 18 18 [1,2,8] 17202144960000,
xm 18 18 [1,1,9] 14478472008000,
xp 18 18 [6,7] 2314093253472000,
xp 18 18 [5,8] 2454341329440000,
xp 18 18 [4,9] 2781586840032000,
xp 18 18 [3,10] 3431827919520000,
xp 18 18 [2,11] 4804559087328000,
xp 18 18 [1,12] 8500373769888000,
xm 18 18 [15] 3169425077058240000,
xm 19 18 [1,1,1,1,1,1] 450450,
xp 19 18 [1,1,2,2,2] 964168920,
xp 19 18 [1,1,1,2,3] 2367565200,
xp 19 18 [1,1,1,1,4] 809909100,
xm 19 18 [2,2,3,3] 192509460000,
xm 19 18 [1,3,3,3] 157760460000,
xm 19 18 [2,2,2,4] 142650668160,
xm 19 18 [1,2,3,4] 1052496244800,
xm 19 18 [1,1,4,4] 360367207200,
xm 19 18 [1,2,2,5] 625348563840,
xm 19 18 [1,1,3,5] 770204635200,
xm 19 18 [1,1,2,6] 959817418560,
xm 19 18 [1,1,1,7] 510161652000,
xp 19 18 [4,4,4] 21411654264000,
xp 19 18 [3,4,5] 137169592560000,
xp 19 18 [2,5,5] 81511949937600,
xp 19 18 [3,3,6] 76609869336000,
xp 19 18 [2,4,6] 170547980803200,
xp 19 18 [1,5,6] 250828289712000,
xp 19 18 [2,3,7] 197065748880000,
xp 19 18 [1,4,7] 271405998864000,
xp 19 18 [2,2,8] 130245534619200,
xp 19 18 [1,3,8] 322236650736000,
xp 19 18 [1,2,9] 436074374736000,
xp 19 18 [1,1,10] 373143194424000,
xm 19 18 [7,7] 30083212295136000,
xm 19 18 [6,8] 61709153425920000,
xm 19 18 [5,9] 66758084160768000,
xm 19 18 [4,10] 76872945397248000,
xm 19 18 [3,11] 96091181746560000,
xm 19 18 [2,12] 136005980318208000,
xm 19 18 [1,13] 242867821996800000,
xp 19 19 [1,1,1,1,1,1] 225225,
xm 19 19 [1,1,2,2,2] 503999496,
xm 19 19 [1,1,1,2,3] 1220384880,
xm 19 19 [1,1,1,1,4] 413513100,
xp 19 19 [2,2,3,3] 102188595600,
xp 19 19 [1,3,3,3] 82614168000,
xp 19 19 [2,2,2,4] 76114715040,
xp 19 19 [1,2,3,4] 552966523200,
xp 19 19 [1,1,4,4] 187503498000,
xp 19 19 [1,2,2,5] 329285567520,
xp 19 19 [1,1,3,5] 400316061600,
xp 19 19 [1,1,2,6] 500068689120,
xp 19 19 [1,1,1,7] 263091628800,
xm 19 19 [4,4,4] 11345465880000,
xm 19 19 [3,4,5] 72581071248000,
xm 19 19 [2,5,5] 43222009924800,
xm 19 19 [3,3,6] 40511410632000,
xm 19 19 [2,4,6] 90504897436800,
xm 19 19 [1,5,6] 131643830102400,
xm 19 19 [2,3,7] 104450490144000,
xm 19 19 [1,4,7] 142471122393600,
xm 19 19 [2,2,8] 69237855086400,
xm 19 19 [1,3,8] 169040263392000,
xm 19 19 [1,2,9] 229251662640000,
xm 19 19 [1,1,10] 194218832808000,
xp 19 19 [7,7] 15925169026166400,
xp 19 19 [6,8] 32672407543776000,
xp 19 19 [5,9] 35338101742944000,
xp 19 19 [4,10] 40706758860768000,
xp 19 19 [3,11] 50843850561504000,
xp 19 19 [2,12] 72131743133049600,
xp 19 19 [1,13] 127505606548320000]
/-- row 9 -/
def extB9 : PL := extB9_0
def extB10_0 : PL := [
xm 19 19 [1,1,1,1,1,1] 25025,
xp 19 19 [1,1,2,2,2] 55999944,
xp 19 19 [1,1,1,2,3] 135598320,
xp 19 19 [1,1,1,1,4] 45945900,
xm 19 19 [2,2,3,3] 11354288400,
xm 19 19 [1,3,3,3] 9179352000,
xm 19 19 [2,2,2,4] 8457190560,
xm 19 19 [1,2,3,4] 61440724800,
xm 19 19 [1,1,4,4] 20833722000,
xm 19 19 [1,2,2,5] 36587285280,
xm 19 19 [1,1,3,5] 44479562400,
xm 19 19 [1,1,2,6] 55563187680,
xm 19 19 [1,1,1,7] 29232403200,
xp 19 19 [4,4,4] 1260607320000,
xp 19 19 [3,4,5] 8064563472000,
xp 19 19 [2,5,5] 4802445547200,
xp 19 19 [3,3,6] 4501267848000,
xp 19 19 [2,4,6] 10056099715200,
xp 19 19 [1,5,6] 14627092233600,
xp 19 19 [2,3,7] 11605610016000,
xp 19 19 [1,4,7] 15830124710400,
xp 19 19 [2,2,8] 7693095009600,
xp 19 19 [1,3,8] 18782251488000,
xp 19 19 [1,2,9] 25472406960000,
xp 19 19 [1,1,10] 21579870312000,
xm 19 19 [7,7] 1769463225129600,
xm 19 19 [6,8] 3630267504864000,
xm 19 19 [5,9] 3926455749216000,
xm 19 19 [4,10] 4522973206752000,
xm 19 19 [3,11] 5649316729056000,
xm 19 19 [2,12] 8014638125894400,
xm 19 19 [1,13] 14167289616480000]
/-- row 10 -/
def extB10 : PL := extB10_0
/-- all rows -/
def extB : List PL := [extB0, extB1, extB2, extB3, extB4, extB5, extB6, extB7, extB8, extB9, extB10]
end Verif.PL
