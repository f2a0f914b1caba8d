import Verif.Lemmas.FormulaCheck

/-! Generated by tools/gen_ext.py (certificate, see Lemmas/ExtKernel). -/
namespace Verif.PL
set_option maxRecDepth 100000

def extA0_0 : PL := [
xp 0 0 [] 2075673600]
/-- row 0 -/
def extA0 : PL := extA0_0
def extA1_0 : PL := [
xm 3 2 [1] 1037836800,
xp 4 2 [2] 1037836800,
xm 5 2 [3] 1037836800,
xp 6 2 [4] 1037836800,
xm 7 2 [5] 1037836800,
xp 8 2 [6] 1037836800,
xm 9 2 [7] 1037836800,
xp 10 2 [8] 1037836800,
xm 11 2 [9] 1037836800,
xp 12 2 [10] 1037836800,
xm 13 2 [11] 1037836800,
xp 14 2 [12] 1037836800,
xm 15 2 [13] 1037836800,
xp 16 2 [14] 1037836800,
xm 17 2 [15] 1037836800,
xp 3 3 [1] 1037836800,
xm 4 3 [2] 3113510400,
xp 5 3 [3] 6227020800,
xm 6 3 [4] 10378368000,
xp 7 3 [5] 15567552000,
xm 8 3 [6] 21794572800,
xp 9 3 [7] 29059430400,
xm 10 3 [8] 37362124800,
xp 11 3 [9] 46702656000,
xm 12 3 [10] 57081024000,
xp 13 3 [11] 68497228800,
xm 14 3 [12] 80951270400,
xp 15 3 [13] 94443148800,
xm 16 3 [14] 108972864000,
xp 17 3 [15] 124540416000,
xp 4 4 [2] 2075673600,
xm 5 4 [3] 10378368000,
xp 6 4 [4] 31135104000,
xm 7 4 [5] 72648576000,
xp 8 4 [6] 145297152000,
xm 9 4 [7] 261534873600,
xp 10 4 [8] 435891456000,
xm 11 4 [9] 684972288000,
xp 12 4 [10] 1027458432000,
xm 13 4 [11] 1484106624000,
xp 14 4 [12] 2077749273600,
xm 15 4 [13] 2833294464000,
xp 16 4 [14] 3777725952000,
xm 17 4 [15] 4940103168000,
xp 5 5 [3] 5189184000,
xm 6 5 [4] 36324288000,
xp 7 5 [5] 145297152000,
xm 8 5 [6] 435891456000,
xp 9 5 [7] 1089728640000,
xm 10 5 [8] 2397403008000,
xp 11 5 [9] 4794806016000,
xm 12 5 [10] 8904639744000,
xp 13 5 [11] 15583119552000,
xm 14 5 [12] 25971865920000,
xp 15 5 [13] 41554985472000,
xm 16 5 [14] 64221341184000,
xp 17 5 [15] 96332011776000,
xp 6 6 [4] 14529715200,
xm 7 6 [5] 130767436800,
xp 8 6 [6] 653837184000,
xm 9 6 [7] 2397403008000,
xp 10 6 [8] 7192209024000,
xm 11 6 [9] 18699743462400,
xp 12 6 [10] 43632734745600,
xm 13 6 [11] 93498717312000,
xp 14 6 [12] 186997434624000,
xm 15 6 [13] 353217376512000,
xp 16 6 [14] 635791277721600,
xm 17 6 [15] 1098184934246400,
xp 7 7 [5] 43589145600,
xm 8 7 [6] 479480601600,
xp 9 7 [7] 2876883609600,
xm 10 7 [8] 12466495641600,
xp 11 7 [9] 43632734745600,
xm 12 7 [10] 130898204236800,
xp 13 7 [11] 349061877964800,
xm 14 7 [12] 847721703628800,
xp 15 7 [13] 1907373833164800,
xm 16 7 [14] 4026678092236800,
xp 17 7 [15] 8053356184473600,
xp 8 8 [6] 136994457600,
xm 9 8 [7] 1780927948800,
xp 10 8 [8] 12466495641600,
xm 11 8 [9] 62332478208000,
xp 12 8 [10] 249329912832000,
xm 13 8 [11] 847721703628800,
xp 14 8 [12] 2543165110886400,
xm 15 8 [13] 6902876729548800,
xp 16 8 [14] 17257191823872000,
xm 17 8 [15] 40266780922368000,
xp 9 9 [7] 445231987200,
xm 10 9 [8] 6678479808000,
xp 11 9 [9] 53427838464000,
xm 12 9 [10] 302757751296000,
xp 13 9 [11] 1362409880832000,
xm 14 9 [12] 5177157547161600,
xp 15 9 [13] 17257191823872000,
xm 16 9 [14] 51771575471616000,
xp 17 9 [15] 142371832546944000,
xp 10 10 [8] 1484106624000,
xm 11 10 [9] 25229812608000,
xp 12 10 [10] 227068313472000,
xm 13 10 [11] 1438099318656000,
xp 14 10 [12] 7190496593280000,
xm 15 10 [13] 30200085691776000,
xp 16 10 [14] 110733647536512000,
xm 17 10 [15] 363839127619968000,
xp 11 11 [9] 5045962521600,
xm 12 11 [10] 95873287910400,
xp 13 11 [11] 958732879104000,
xm 14 11 [12] 6711130153728000,
xp 15 11 [13] 36911215845504000,
xm 16 11 [14] 169791592889318400,
xp 17 11 [15] 679166371557273600,
xp 12 12 [10] 17431506892800,
xm 13 12 [11] 366061644748800,
xp 14 12 [12] 4026678092236800,
xm 15 12 [13] 30871198707148800,
xp 16 12 [14] 185227192242892800,
xm 17 12 [15] 926135961214464000,
xp 13 13 [11] 61010274124800,
xm 14 13 [12] 1403236304870400,
xp 15 13 [13] 16838835658444800,
xm 16 13 [14] 140323630487040000,
xp 17 13 [15] 912103598165760000,
xp 14 14 [12] 215882508441600,
xm 15 14 [13] 5397062711040000,
xp 16 14 [14] 70161815243520000,
xm 17 14 [15] 631456337191680000,
xp 15 15 [13] 771008958720000,
xm 16 15 [14] 20817241885440000,
xp 17 15 [15] 291441386396160000,
xp 16 16 [14] 2775632251392000,
xm 17 16 [15] 80493335290368000,
xp 17 17 [15] 10061666911296000]
/-- row 1 -/
def extA1 : PL := extA1_0
def extA2_0 : PL := [
xm 3 3 [1] 1037836800,
xp 4 3 [2] 3113510400,
xm 5 3 [3] 6227020800,
xp 6 3 [4] 10378368000,
xm 7 3 [5] 15567552000,
xp 8 3 [6] 21794572800,
xm 9 3 [7] 29059430400,
xp 10 3 [8] 37362124800,
xm 11 3 [9] 46702656000,
xp 12 3 [10] 57081024000,
xm 13 3 [11] 68497228800,
xp 14 3 [12] 80951270400,
xm 15 3 [13] 94443148800,
xp 16 3 [14] 108972864000,
xm 17 3 [15] 124540416000,
xm 4 4 [2] 3113510400,
xp 5 4 [3] 15567552000,
xp 6 4 [1,1] 259459200,
xm 6 4 [4] 46702656000,
xm 7 4 [1,2] 518918400,
xp 7 4 [5] 108972864000,
xp 8 4 [2,2] 259459200,
xp 8 4 [1,3] 518918400,
xm 8 4 [6] 217945728000,
xm 9 4 [2,3] 518918400,
xm 9 4 [1,4] 518918400,
xp 9 4 [7] 392302310400,
xp 10 4 [3,3] 259459200,
xp 10 4 [2,4] 518918400,
xp 10 4 [1,5] 518918400,
xm 10 4 [8] 653837184000,
xm 11 4 [3,4] 518918400,
xm 11 4 [2,5] 518918400,
xm 11 4 [1,6] 518918400,
xp 11 4 [9] 1027458432000,
xp 12 4 [4,4] 259459200,
xp 12 4 [3,5] 518918400,
xp 12 4 [2,6] 518918400,
xp 12 4 [1,7] 518918400,
xm 12 4 [10] 1541187648000,
xm 13 4 [4,5] 518918400,
xm 13 4 [3,6] 518918400,
xm 13 4 [2,7] 518918400,
xm 13 4 [1,8] 518918400,
xp 13 4 [11] 2226159936000,
xp 14 4 [5,5] 259459200,
xp 14 4 [4,6] 518918400,
xp 14 4 [3,7] 518918400,
xp 14 4 [2,8] 518918400,
xp 14 4 [1,9] 518918400,
xm 14 4 [12] 3116623910400,
xm 15 4 [5,6] 518918400,
xm 15 4 [4,7] 518918400,
xm 15 4 [3,8] 518918400,
xm 15 4 [2,9] 518918400,
xm 15 4 [1,10] 518918400,
xp 15 4 [13] 4249941696000,
xp 16 4 [6,6] 259459200,
xp 16 4 [5,7] 518918400,
xp 16 4 [4,8] 518918400,
xp 16 4 [3,9] 518918400,
xp 16 4 [2,10] 518918400,
xp 16 4 [1,11] 518918400,
xm 16 4 [14] 5666588928000,
xm 17 4 [6,7] 518918400,
xm 17 4 [5,8] 518918400,
xm 17 4 [4,9] 518918400,
xm 17 4 [3,10] 518918400,
xm 17 4 [2,11] 518918400,
xm 17 4 [1,12] 518918400,
xp 17 4 [15] 7410154752000,
xp 18 4 [7,7] 259459200,
xp 18 4 [6,8] 518918400,
xp 18 4 [5,9] 518918400,
xp 18 4 [4,10] 518918400,
xp 18 4 [3,11] 518918400,
xp 18 4 [2,12] 518918400,
xp 18 4 [1,13] 518918400,
xm 19 4 [7,8] 518918400,
xm 19 4 [6,9] 518918400,
xm 19 4 [5,10] 518918400,
xm 19 4 [4,11] 518918400,
xm 19 4 [3,12] 518918400,
xm 19 4 [2,13] 518918400,
xm 19 4 [1,14] 518918400,
xm 5 5 [3] 10378368000,
xm 6 5 [1,1] 518918400,
xp 6 5 [4] 72648576000,
xp 7 5 [1,2] 2075673600,
xm 7 5 [5] 290594304000,
xm 8 5 [2,2] 1556755200,
xm 8 5 [1,3] 3632428800,
xp 8 5 [6] 871782912000,
xp 9 5 [2,3] 4670265600,
xp 9 5 [1,4] 5708102400,
xm 9 5 [7] 2179457280000,
xm 10 5 [3,3] 3113510400,
xm 10 5 [2,4] 6745939200,
xm 10 5 [1,5] 8302694400,
xp 10 5 [8] 4794806016000,
xp 11 5 [3,4] 8302694400,
xp 11 5 [2,5] 9340531200,
xp 11 5 [1,6] 11416204800,
xm 11 5 [9] 9589612032000,
xm 12 5 [4,4] 5189184000,
xm 12 5 [3,5] 10897286400,
xm 12 5 [2,6] 12454041600,
xm 12 5 [1,7] 15048633600,
xp 12 5 [10] 17809279488000,
xp 13 5 [4,5] 12972960000,
xp 13 5 [3,6] 14010796800,
xp 13 5 [2,7] 16086470400,
xp 13 5 [1,8] 19199980800,
xm 13 5 [11] 31166239104000,
xm 14 5 [5,5] 7783776000,
xm 14 5 [4,6] 16086470400,
xm 14 5 [3,7] 17643225600,
xm 14 5 [2,8] 20237817600,
xm 14 5 [1,9] 23870246400,
xp 14 5 [12] 51943731840000,
xp 15 5 [5,6] 18681062400,
xp 15 5 [4,7] 19718899200,
xp 15 5 [3,8] 21794572800,
xp 15 5 [2,9] 24908083200,
xp 15 5 [1,10] 29059430400,
xm 15 5 [13] 83109970944000,
xm 16 5 [6,6] 10897286400,
xm 16 5 [5,7] 22313491200,
xm 16 5 [4,8] 23870246400,
xm 16 5 [3,9] 26464838400,
xm 16 5 [2,10] 30097267200,
xm 16 5 [1,11] 34767532800,
xp 16 5 [14] 128442682368000,
xp 17 5 [6,7] 25427001600,
xp 17 5 [5,8] 26464838400,
xp 17 5 [4,9] 28540512000,
xp 17 5 [3,10] 31654022400,
xp 17 5 [2,11] 35805369600,
xp 17 5 [1,12] 40994553600,
xm 17 5 [15] 192664023552000,
xm 18 5 [7,7] 14529715200,
xm 18 5 [6,8] 29578348800,
xm 18 5 [5,9] 31135104000,
xm 18 5 [4,10] 33729696000,
xm 18 5 [3,11] 37362124800,
xm 18 5 [2,12] 42032390400,
xm 18 5 [1,13] 47740492800,
xp 19 5 [7,8] 33210777600,
xp 19 5 [6,9] 34248614400,
xp 19 5 [5,10] 36324288000,
xp 19 5 [4,11] 39437798400,
xp 19 5 [3,12] 43589145600,
xp 19 5 [2,13] 48778329600,
xp 19 5 [1,14] 55005350400,
xp 6 6 [1,1] 259459200,
xm 6 6 [4] 36324288000,
xm 7 6 [1,2] 2594592000,
xp 7 6 [5] 326918592000,
xp 8 6 [2,2] 3372969600,
xp 8 6 [1,3] 8302694400,
xm 8 6 [6] 1634592960000,
xm 9 6 [2,3] 15567552000,
xm 9 6 [1,4] 20756736000,
xp 9 6 [7] 5993507520000,
xp 10 6 [3,3] 14529715200,
xp 10 6 [2,4] 32172940800,
xp 10 6 [1,5] 44108064000,
xm 10 6 [8] 17980522560000,
xm 11 6 [3,4] 51891840000,
xm 11 6 [2,5] 60713452800,
xm 11 6 [1,6] 83545862400,
xp 11 6 [9] 46749358656000,
xp 12 6 [4,4] 41513472000,
xp 12 6 [3,5] 88216128000,
xp 12 6 [2,6] 106378272000,
xp 12 6 [1,7] 145297152000,
xm 12 6 [10] 109081836864000,
xm 13 6 [4,5] 129729600000,
xm 13 6 [3,6] 143221478400,
xm 13 6 [2,7] 175394419200,
xm 13 6 [1,8] 236626790400,
xp 13 6 [11] 233746793280000,
xp 14 6 [5,5] 94702608000,
xp 14 6 [4,6] 197188992000,
xp 14 6 [3,7] 223134912000,
xp 14 6 [2,8] 275026752000,
xp 14 6 [1,9] 365837472000,
xm 14 6 [12] 467493586560000,
xm 15 6 [5,6] 272432160000,
xm 15 6 [4,7] 291632140800,
xm 15 6 [3,8] 335221286400,
xm 15 6 [2,9] 413577964800,
xm 15 6 [1,10] 542269728000,
xp 15 6 [13] 883043441280000,
xp 16 6 [6,6] 187070083200,
xp 16 6 [5,7] 385037452800,
xp 16 6 [4,8] 420323904000,
xp 16 6 [3,9] 487783296000,
xp 16 6 [2,10] 600388588800,
xp 16 6 [1,11] 776301926400,
xm 16 6 [14] 1589478194304000,
xm 17 6 [6,7] 508540032000,
xm 17 6 [5,8] 534485952000,
xm 17 6 [4,9] 591566976000,
xm 17 6 [3,10] 690161472000,
xm 17 6 [2,11] 845836992000,
xm 17 6 [1,12] 1079350272000,
xp 17 6 [15] 2745462335616000,
xp 18 6 [7,7] 334183449600,
xp 18 6 [6,8] 682896614400,
xp 18 6 [5,9] 729080352000,
xp 18 6 [4,10] 814701888000,
xp 18 6 [3,11] 952734182400,
xp 18 6 [2,12] 1161339379200,
xp 18 6 [1,13] 1463868806400,
xm 19 6 [7,8] 871782912000,
xm 19 6 [6,9] 905512608000,
xm 19 6 [5,10] 978161184000,
xm 19 6 [4,11] 1100107008000,
xm 19 6 [3,12] 1286917632000,
xm 19 6 [2,13] 1559349792000,
xm 19 6 [1,14] 1943349408000,
xp 7 7 [1,2] 1037836800,
xm 7 7 [5] 130767436800,
xm 8 7 [2,2] 3113510400,
xm 8 7 [1,3] 7783776000,
xp 8 7 [6] 1438441804800,
xp 9 7 [2,3] 24389164800,
xp 9 7 [1,4] 33729696000,
xm 9 7 [7] 8630650828800,
xm 10 7 [3,3] 33729696000,
xm 10 7 [2,4] 75243168000,
xm 10 7 [1,5] 108972864000,
xp 10 7 [8] 37399486924800,
xp 11 7 [3,4] 166053888000,
xp 11 7 [2,5] 197188992000,
xp 11 7 [1,6] 290594304000,
xm 11 7 [9] 130898204236800,
xm 12 7 [4,4] 173837664000,
xm 12 7 [3,5] 371026656000,
xm 12 7 [2,6] 457686028800,
xm 12 7 [1,7] 675631756800,
xp 12 7 [10] 392694612710400,
xp 13 7 [4,5] 687566880000,
xp 13 7 [3,6] 765404640000,
xp 13 7 [2,7] 966226060800,
xp 13 7 [1,8] 1416647232000,
xm 13 7 [11] 1047185633894400,
xm 14 7 [5,5] 617512896000,
xm 14 7 [4,6] 1289512224000,
xm 14 7 [3,7] 1477360684800,
xm 14 7 [2,8] 1889900812800,
xm 14 7 [1,9] 2739889152000,
xp 14 7 [12] 2543165110886400,
xp 15 7 [5,6] 2143132992000,
xp 15 7 [4,7] 2306592288000,
xp 15 7 [3,8] 2695781088000,
xp 15 7 [2,9] 3471564096000,
xp 15 7 [1,10] 4966049088000,
xm 15 7 [13] 5722121499494400,
xm 16 7 [6,6] 1743565824000,
xm 16 7 [5,7] 3596104512000,
xm 16 7 [4,8] 3956752800000,
xm 16 7 [3,9] 4688427744000,
xm 16 7 [2,10] 6050588544000,
xm 16 7 [1,11] 8533613088000,
xp 16 7 [14] 12080034276710400,
xp 17 7 [6,7] 5543086348800,
xp 17 7 [5,8] 5848210368000,
xp 17 7 [4,9] 6540966432000,
xp 17 7 [3,10] 7822694880000,
xp 17 7 [2,11] 10086216940800,
xp 17 7 [1,12] 14024807596800,
xm 17 7 [15] 24160068553420800,
xm 18 7 [7,7] 4206352550400,
xm 18 7 [6,8] 8608856256000,
xm 18 7 [5,9] 9241936704000,
xm 18 7 [4,10] 10463989536000,
xm 18 7 [3,11] 12588960384000,
xm 18 7 [2,12] 16183508140800,
xm 18 7 [1,13] 22194139968000,
xp 19 7 [7,8] 12553673932800,
xp 19 7 [6,9] 13076743680000,
xp 19 7 [5,10] 14228742528000,
xp 19 7 [4,11] 16257713472000,
xp 19 7 [3,12] 19626531724800,
xp 19 7 [2,13] 25121877580800,
xp 19 7 [1,14] 33999533568000,
xp 8 8 [2,2] 1037836800,
xp 8 8 [1,3] 2594592000,
xm 8 8 [6] 479480601600,
xm 9 8 [2,3] 18162144000,
xm 9 8 [1,4] 25427001600,
xp 9 8 [7] 6233247820800,
xp 10 8 [3,3] 41513472000,
xp 10 8 [2,4] 92886393600,
xp 10 8 [1,5] 138032294400,
xm 10 8 [8] 43632734745600,
xm 11 8 [3,4] 297859161600,
xm 11 8 [2,5] 355978022400,
xm 11 8 [1,6] 544864320000,
xp 11 8 [9] 218163673728000,
xp 12 8 [4,4] 422399577600,
xp 12 8 [3,5] 903436934400,
xp 12 8 [2,6] 1126052928000,
xp 12 8 [1,7] 1743565824000,
xm 12 8 [10] 872654694912000,
xm 13 8 [4,5] 2161295136000,
xm 13 8 [3,6] 2415565152000,
xm 13 8 [2,7] 3094829337600,
xm 13 8 [1,8] 4794806016000,
xp 13 8 [11] 2967025962700800,
xp 14 8 [5,5] 2426462438400,
xp 14 8 [4,6] 5074503033600,
xp 14 8 [3,7] 5848210368000,
xp 14 8 [2,8] 7628100480000,
xp 14 8 [1,9] 11747274739200,
xm 14 8 [12] 8901077888102400,
xm 15 8 [5,6] 10272508646400,
xm 15 8 [4,7] 11086172697600,
xm 15 8 [3,8] 13061176128000,
xm 15 8 [2,9] 17227053043200,
xm 15 8 [1,10] 26268687244800,
xp 15 8 [13] 24160068553420800,
xp 16 8 [6,6] 9989179200000,
xp 16 8 [5,7] 20624930726400,
xp 16 8 [4,8] 22782593433600,
xp 16 8 [3,9] 27275907859200,
xp 16 8 [2,10] 36200785420800,
xp 16 8 [1,11] 54540918432000,
xm 16 8 [14] 60400171383552000,
xm 17 8 [6,7] 37377692352000,
xm 17 8 [5,8] 39513560486400,
xm 17 8 [4,9] 44423047468800,
xm 17 8 [3,10] 53810281324800,
xm 17 8 [2,11] 71608144608000,
xm 17 8 [1,12] 106484650272000,
xp 17 8 [15] 140933733228288000,
xp 18 8 [7,7] 32931599500800,
xp 18 8 [6,8] 67454202816000,
xp 18 8 [5,9] 72619516569600,
xp 18 8 [4,10] 82757625350400,
xp 18 8 [3,11] 101090493504000,
xp 18 8 [2,12] 134534265465600,
xp 18 8 [1,13] 197386180992000,
xm 19 8 [7,8] 112895887104000,
xm 19 8 [6,9] 117777871411200,
xm 19 8 [5,10] 128623265971200,
xm 19 8 [4,11] 148132522137600,
xm 19 8 [3,12] 182005439616000,
xm 19 8 [2,13] 241774460928000,
xm 19 8 [1,14] 350006309452800,
xp 9 9 [2,3] 5189184000,
xp 9 9 [1,4] 7264857600,
xm 9 9 [7] 1780927948800,
xm 10 9 [3,3] 25945920000,
xm 10 9 [2,4] 58118860800,
xm 10 9 [1,5] 87178291200,
xp 10 9 [8] 26713919232000,
xp 11 9 [3,4] 303048345600,
xp 11 9 [2,5] 363242880000,
xp 11 9 [1,6] 566658892800,
xm 11 9 [9] 213711353856000,
xm 12 9 [4,4] 617512896000,
xm 12 9 [3,5] 1322204083200,
xm 12 9 [2,6] 1656387532800,
xm 12 9 [1,7] 2637143308800,
xp 12 9 [10] 1211031005184000,
xp 13 9 [4,5] 4235411980800,
xp 13 9 [3,6] 4743952012800,
xp 13 9 [2,7] 6124274956800,
xp 13 9 [1,8] 9829352332800,
xm 13 9 [11] 5449639523328000,
xm 14 9 [5,5] 6087950668800,
xm 14 9 [4,6] 12742560230400,
xm 14 9 [3,7] 14733131212800,
xm 14 9 [2,8] 19418964364800,
xm 14 9 [1,9] 31166239104000,
xp 14 9 [12] 20708630188646400,
xp 15 9 [5,6] 31965373440000,
xp 15 9 [4,7] 34551662745600,
xp 15 9 [3,8] 40886618572800,
xp 15 9 [2,9] 54660788582400,
xp 15 9 [1,10] 87265469491200,
xm 15 9 [13] 69028767295488000,
xm 16 9 [6,6] 37617432652800,
xm 16 9 [5,7] 77719446604800,
xm 16 9 [4,8] 86044973414400,
xm 16 9 [3,9] 103602058560000,
xm 16 9 [2,10] 139802843980800,
xm 16 9 [1,11] 221280297638400,
xp 16 9 [14] 207086301886464000,
xp 17 9 [6,7] 167207962521600,
xp 17 9 [5,8] 176971931136000,
xp 17 9 [4,9] 199551108556800,
xp 17 9 [3,10] 243439151155200,
xp 17 9 [2,11] 330362134502400,
xp 17 9 [1,12] 517359569126400,
xm 17 9 [15] 569487330187776000,
xm 18 9 [7,7] 172307892556800]
def extA2_1 : PL := [
xm 18 9 [6,8] 353115668505600,
xm 18 9 [5,9] 380794775961600,
xm 18 9 [4,10] 435562461734400,
xm 18 9 [3,11] 536652955238400,
xm 18 9 [2,12] 730328869670400,
xm 18 9 [1,13] 1130295604838400,
xp 19 9 [7,8] 682431663513600,
xp 19 9 [6,9] 712595352268800,
xp 19 9 [5,10] 779896993075200,
xp 19 9 [4,11] 902222665344000,
xp 19 9 [3,12] 1119906858470400,
xp 19 9 [2,13] 1525067966822400,
xp 19 9 [1,14] 2331234684979200,
xp 10 10 [3,3] 6486480000,
xp 10 10 [2,4] 14529715200,
xp 10 10 [1,5] 21794572800,
xm 10 10 [8] 6678479808000,
xm 11 10 [3,4] 163459296000,
xm 11 10 [2,5] 196151155200,
xm 11 10 [1,6] 308237529600,
xp 11 10 [9] 113534156736000,
xp 12 10 [4,4] 535783248000,
xp 12 10 [3,5] 1147847500800,
xp 12 10 [2,6] 1441555315200,
xp 12 10 [1,7] 2328905779200,
xm 12 10 [10] 1021807410624000,
xm 13 10 [4,5] 5230697472000,
xm 13 10 [3,6] 5865853593600,
xm 13 10 [2,7] 7603192396800,
xm 13 10 [1,8] 12466495641600,
xp 13 10 [11] 6471446933952000,
xp 14 10 [5,5] 9989179200000,
xp 14 10 [4,6] 20918638540800,
xp 14 10 [3,7] 24232451443200,
xp 14 10 [2,8] 32125200307200,
xp 14 10 [1,9] 52982606476800,
xm 14 10 [12] 32357234669760000,
xm 15 10 [5,6] 66672711705600,
xm 15 10 [4,7] 72136922457600,
xm 15 10 [3,8] 85587287385600,
xm 15 10 [2,9] 115315084684800,
xm 15 10 [1,10] 190114058534400,
xp 15 10 [13] 135900385612992000,
xp 16 10 [6,6] 96640249305600,
xp 16 10 [5,7] 199744146201600,
xp 16 10 [4,8] 221454654220800,
xp 16 10 [3,9] 267550175692800,
xp 16 10 [2,10] 364644997516800,
xp 16 10 [1,11] 598391790796800,
xm 16 10 [14] 498301413914304000,
xm 17 10 [6,7] 516923677670400,
xm 17 10 [5,8] 547523257881600,
xm 17 10 [4,9] 618529976064000,
xm 17 10 [3,10] 757784842214400,
xm 17 10 [2,11] 1040952386073600,
xm 17 10 [1,12] 1695443407257600,
xp 17 10 [15] 1637276074289856000,
xp 18 10 [7,7] 629293381516800,
xp 18 10 [6,8] 1290045672115200,
xp 18 10 [5,9] 1392673201920000,
xp 18 10 [4,10] 1596670403328000,
xp 18 10 [3,11] 1977497871148800,
xp 18 10 [2,12] 2730162545510400,
xp 18 10 [1,13] 4405125281356800,
xm 19 10 [7,8] 2901748103654400,
xm 19 10 [6,9] 3031824341145600,
xm 19 10 [5,10] 3322800569088000,
xm 19 10 [4,11] 3854744339846400,
xm 19 10 [3,12] 4814664504249600,
xm 19 10 [2,13] 6665716491033600,
xm 19 10 [1,14] 10641934958054400,
xp 11 11 [3,4] 36324288000,
xp 11 11 [2,5] 43589145600,
xp 11 11 [1,6] 68497228800,
xm 11 11 [9] 25229812608000,
xm 12 11 [4,4] 254270016000,
xm 12 11 [3,5] 544864320000,
xm 12 11 [2,6] 684972288000,
xm 12 11 [1,7] 1113079968000,
xp 12 11 [10] 479366439552000,
xp 13 11 [4,5] 3959347392000,
xp 13 11 [3,6] 4442979340800,
xp 13 11 [2,7] 5770891526400,
xp 13 11 [1,8] 9572487724800,
xm 13 11 [11] 4793664395520000,
xm 14 11 [5,5] 10679340672000,
xm 14 11 [4,6] 22370572224000,
xm 14 11 [3,7] 25943325408000,
xm 14 11 [2,8] 34505479008000,
xm 14 11 [1,9] 57880158336000,
xp 14 11 [12] 33555650768640000,
xp 15 11 [5,6] 94090284288000,
xp 15 11 [4,7] 101863163001600,
xp 15 11 [3,8] 121051727596800,
xp 15 11 [2,9] 163845371289600,
xp 15 11 [1,10] 276043832064000,
xm 15 11 [13] 184556079227520000,
xm 16 11 [6,6] 172307892556800,
xm 16 11 [5,7] 356233849171200,
xm 16 11 [4,8] 395314631712000,
xm 16 11 [3,9] 478624386240000,
xm 16 11 [2,10] 656271949132800,
xm 16 11 [1,11] 1105065792230400,
xp 16 11 [14] 848957964446592000,
xp 17 11 [6,7] 1129355843616000,
xp 17 11 [5,8] 1196810046432000,
xp 17 11 [4,9] 1353676484160000,
xp 17 11 [3,10] 1662941472192000,
xp 17 11 [2,11] 2301849373824000,
xp 17 11 [1,12] 3860161329024000,
xm 17 11 [15] 3395831857786368000,
xm 18 11 [7,7] 1646279521286400,
xm 18 11 [6,8] 3375594808185600,
xm 18 11 [5,9] 3646792461312000,
xm 18 11 [4,10] 4187406839616000,
xm 18 11 [3,11] 5203426234406400,
xm 18 11 [2,12] 7251048143539200,
xm 18 11 [1,13] 12080034276710400,
xp 19 11 [7,8] 8929983718656000,
xp 19 11 [6,9] 9334117368576000,
xp 19 11 [5,10] 10239650733312000,
xp 19 11 [4,11] 11901051017856000,
xp 19 11 [3,12] 14924176210944000,
xp 19 11 [2,13] 20890284839424000,
xp 19 11 [1,14] 34514383647744000,
xp 12 12 [4,4] 50854003200,
xp 12 12 [3,5] 108972864000,
xp 12 12 [2,6] 136994457600,
xp 12 12 [1,7] 222615993600,
xm 12 12 [10] 95873287910400,
xm 13 12 [4,5] 1678182105600,
xm 13 12 [3,6] 1883673792000,
xm 13 12 [2,7] 2448775929600,
xm 13 12 [1,8] 4081293216000,
xp 13 12 [11] 2013339046118400,
xp 14 12 [5,5] 7170414451200,
xp 14 12 [4,6] 15022687680000,
xp 14 12 [3,7] 17432544729600,
xp 14 12 [2,8] 23226268665600,
xp 14 12 [1,9] 39328825536000,
xm 14 12 [12] 22146729507302400,
xm 15 12 [5,6] 88703911296000,
xm 15 12 [4,7] 96067363392000,
xm 15 12 [3,8] 114276210048000,
xm 15 12 [2,9] 155089142208000,
xm 15 12 [1,10] 264913032384000,
xp 15 12 [13] 169791592889318400,
xp 16 12 [6,6] 213259894848000,
xp 16 12 [5,7] 440974261728000,
xp 16 12 [4,8] 489641023872000,
xp 16 12 [3,9] 593642649600000,
xp 16 12 [2,10] 817000696512000,
xp 16 12 [1,11] 1400254599744000,
xm 16 12 [14] 1018749557335910400,
xm 17 12 [6,7] 1757656015315200,
xm 17 12 [5,8] 1863267325920000,
xm 17 12 [4,9] 2109212334028800,
xm 17 12 [3,10] 2595702485376000,
xm 17 12 [2,11] 3610386184204800,
xm 17 12 [1,12] 6183827070220800,
xp 17 12 [15] 5093747786679552000,
xp 18 12 [7,7] 3125494301529600,
xp 18 12 [6,8] 6409599644448000,
xp 18 12 [5,9] 6928026628723200,
xp 18 12 [4,10] 7963419323059200,
xp 18 12 [3,11] 9917542514880000,
xp 18 12 [2,12] 13904149728268800,
xp 18 12 [1,13] 23728638757824000,
xm 19 12 [7,8] 20221740470131200,
xm 19 12 [6,9] 21142982532672000,
xm 19 12 [5,10] 23209498260748800,
xm 19 12 [4,11] 27009998503488000,
xm 19 12 [3,12] 33961850751628800,
xm 19 12 [2,13] 47888707311244800,
xm 19 12 [1,14] 81252611504064000,
xp 13 13 [4,5] 305124019200,
xp 13 13 [3,6] 342486144000,
xp 13 13 [2,7] 445231987200,
xp 13 13 [1,8] 742053312000,
xm 13 13 [11] 366061644748800,
xm 14 13 [5,5] 2746116172800,
xm 14 13 [4,6] 5753767219200,
xm 14 13 [3,7] 6678479808000,
xm 14 13 [2,8] 8904639744000,
xm 14 13 [1,9] 15137887564800,
xp 14 13 [12] 8419417829222400,
xp 15 13 [5,6] 53527470796800,
xp 15 13 [4,7] 57982904179200,
xp 15 13 [3,8] 69010958016000,
xp 15 13 [2,9] 93795538636800,
xp 15 13 [1,10] 161470800691200,
xm 15 13 [13] 101033013950668800,
xm 16 13 [6,6] 179805225600000,
xm 16 13 [5,7] 371837206540800,
xm 16 13 [4,8] 413026873459200,
xm 16 13 [3,9] 501182806924800,
xm 16 13 [2,10] 691296865459200,
xm 16 13 [1,11] 1198416098880000,
xp 16 13 [14] 841941782922240000,
xp 17 13 [6,7] 1937101630464000,
xp 17 13 [5,8] 2053957902796800,
xp 17 13 [4,9] 2326337133120000,
xp 17 13 [3,10] 2866255122931200,
xp 17 13 [2,11] 3998925298368000,
xp 17 13 [1,12] 6950813373504000,
xm 17 13 [15] 5472621588994560000,
xm 18 13 [7,7] 4313886972595200,
xm 18 13 [6,8] 8847615801024000,
xm 18 13 [5,9] 9566551298304000,
xm 18 13 [4,10] 11004205384972800,
xm 18 13 [3,11] 13725018058752000,
xm 18 13 [2,12] 19318467513945600,
xm 18 13 [1,13] 33555650768640000,
xp 19 13 [7,8] 33924850831872000,
xp 19 13 [6,9] 35477614511539200,
xp 19 13 [5,10] 38963438485171200,
xp 19 13 [4,11] 45384574204569600,
xp 19 13 [3,12] 57170755369728000,
xp 19 13 [2,13] 81012928284288000,
xp 19 13 [1,14] 140262620212915200,
xp 14 14 [5,5] 457686028800,
xp 14 14 [4,6] 958961203200,
xp 14 14 [3,7] 1113079968000,
xp 14 14 [2,8] 1484106624000,
xp 14 14 [1,9] 2522981260800,
xm 14 14 [12] 1403236304870400,
xm 15 14 [5,6] 18699743462400,
xm 15 14 [4,7] 20258055417600,
xm 15 14 [3,8] 24116732640000,
xm 15 14 [2,9] 32798756390400,
xm 15 14 [1,10] 56652397401600,
xp 15 14 [13] 35080907621760000,
xp 16 14 [6,6] 98533263628800,
xp 16 14 [5,7] 203779255680000,
xp 16 14 [4,8] 226400465491200,
xp 16 14 [3,9] 274856546764800,
xp 16 14 [2,10] 379593998784000,
xp 16 14 [1,11] 662397261926400,
xm 16 14 [14] 456051799082880000,
xm 17 14 [6,7] 1477279733529600,
xm 17 14 [5,8] 1566622952294400,
xm 17 14 [4,9] 1774991522304000,
xm 17 14 [3,10] 2188571562777600,
xm 17 14 [2,11] 3059229459686400,
xm 17 14 [1,12] 5368904122982400,
xp 17 14 [15] 4104466191745920000,
xp 18 14 [7,7] 4284398915596800,
xp 18 14 [6,8] 8787760639257600,
xp 18 14 [5,9] 9504070409433600,
xp 18 14 [4,10] 10937676932582400,
xp 18 14 [3,11] 13655750755046400,
xp 18 14 [2,12] 19270530869990400,
xp 18 14 [1,13] 33891207276326400,
xm 19 14 [7,8] 42055723046937600,
xm 19 14 [6,9] 43986990996748800,
xm 19 14 [5,10] 48324845772403200,
xm 19 14 [4,11] 56324409837696000,
xm 19 14 [3,12] 71042106341606400,
xm 19 14 [2,13] 101002508813606400,
xm 19 14 [1,14] 177509392566105600,
xp 15 15 [5,6] 2876883609600,
xp 15 15 [4,7] 3116623910400,
xp 15 15 [3,8] 3710266560000,
xp 15 15 [2,9] 5045962521600,
xp 15 15 [1,10] 8715753446400,
xm 15 15 [13] 5397062711040000,
xm 16 15 [6,6] 31645719705600,
xm 16 15 [5,7] 65449102118400,
xm 16 15 [4,8] 72721224576000,
xm 16 15 [3,9] 88304344128000,
xm 16 15 [2,10] 122020548249600,
xm 16 15 [1,11] 213535959436800,
xp 16 15 [14] 145720693198080000,
xp 17 15 [6,7] 741516750374400,
xp 17 15 [5,8] 786428100057600,
xp 17 15 [4,9] 891206027712000,
xp 17 15 [3,10] 1099331743910400,
xp 17 15 [2,11] 1538330483289600,
xp 17 15 [1,12] 2714957198553600,
xm 17 15 [15] 2040089704773120000,
xm 18 15 [7,7] 2982609082252800,
xm 18 15 [6,8] 6117932736115200,
xm 18 15 [5,9] 6617631436416000,
xm 18 15 [4,10] 7618256597952000,
xm 18 15 [3,11] 9517602763468800,
xm 18 15 [2,12] 13452765444518400,
xm 18 15 [1,13] 23855017182796800,
xp 19 15 [7,8] 38010345211238400,
xp 19 15 [6,9] 39759810099609600,
xp 19 15 [5,10] 43690749822720000,
xp 19 15 [4,11] 50945413789670400,
xp 19 15 [3,12] 64313544680985600,
xp 19 15 [2,13] 91637431735449600,
xp 19 15 [1,14] 162775411364966400,
xp 16 16 [6,6] 4520817100800,
xp 16 16 [5,7] 9349871731200,
xp 16 16 [4,8] 10388746368000,
xp 16 16 [3,9] 12614906304000,
xp 16 16 [2,10] 17431506892800,
xp 16 16 [1,11] 30505137062400,
xm 16 16 [14] 20817241885440000,
xm 17 16 [6,7] 220389833664000,
xm 17 16 [5,8] 233746793280000,
xm 17 16 [4,9] 264913032384000,
xm 17 16 [3,10] 326840754240000,
xm 17 16 [2,11] 457577055936000,
xm 17 16 [1,12] 809559406656000,
xp 17 16 [15] 603700014677760000,
xp 18 16 [7,7] 1381109624294400,
xp 18 16 [6,8] 2833011134553600,
xp 18 16 [5,9] 3064680178560000,
xp 18 16 [4,10] 3528733336128000,
xp 18 16 [3,11] 4410171243878400,
xp 18 16 [2,12] 6239473803763200,
xp 18 16 [1,13] 11117949184742400,
xm 19 16 [7,8] 24340832740224000,
xm 19 16 [6,9] 25462817347968000,
xm 19 16 [5,10] 27984449420928000,
xm 19 16 [4,11] 32640496656768000,
xm 19 16 [3,12] 41228866014336000,
xm 19 16 [2,13] 58827983550336000,
xm 19 16 [1,14] 105242722865280000,
xp 17 17 [6,7] 29385311155200,
xp 17 17 [5,8] 31166239104000,
xp 17 17 [4,9] 35321737651200,
xp 17 17 [3,10] 43578767232000,
xp 17 17 [2,11] 61010274124800,
xp 17 17 [1,12] 107941254220800,
xm 17 17 [15] 80493335290368000,
xm 18 17 [7,7] 382009045017600,
xm 18 17 [6,8] 783608297472000,
xm 18 17 [5,9] 847721703628800,
xm 18 17 [4,10] 976164385996800,
xm 18 17 [3,11] 1220205482496000,
xm 18 17 [2,12] 1727060067532800,
xm 18 17 [1,13] 3084035834880000,
xp 19 17 [7,8] 10461170771251200,
xp 19 17 [6,9] 10943802245376000,
xp 19 17 [5,10] 12028657203763200,
xp 19 17 [4,11] 14032363048704000,
xp 19 17 [3,12] 17730524280268800,
xp 19 17 [2,13] 25319934204364800,
xp 19 17 [1,14] 45489528564480000,
xp 18 18 [7,7] 47751130627200,
xp 18 18 [6,8] 97951037184000,
xp 18 18 [5,9] 105965212953600,
xp 18 18 [4,10] 122020548249600,
xp 18 18 [3,11] 152525685312000,
xp 18 18 [2,12] 215882508441600,
xp 18 18 [1,13] 385504479360000,
xm 19 18 [7,8] 2705897402208000,
xm 19 18 [6,9] 2830784974617600,
xm 19 18 [5,10] 3111523980364800,
xm 19 18 [4,11] 3630111310425600,
xm 19 18 [3,12] 4587503304384000,
xm 19 18 [2,13] 6553576149120000,
xm 19 18 [1,14] 11796437068416000,
xp 19 19 [7,8] 318340870848000,
xp 19 19 [6,9] 333033526425600,
xp 19 19 [5,10] 366061644748800,
xp 19 19 [4,11] 427071918873600,
xp 19 19 [3,12] 539706271104000,
xp 19 19 [2,13] 771008958720000,
xp 19 19 [1,14] 1387816125696000]
/-- row 2 -/
def extA2 : PL := extA2_0 ++ extA2_1
def extA3_0 : PL := [
xp 5 5 [3] 5189184000,
xp 6 5 [1,1] 518918400,
xm 6 5 [4] 36324288000,
xm 7 5 [1,2] 2075673600,
xp 7 5 [5] 145297152000,
xp 8 5 [2,2] 1556755200,
xp 8 5 [1,3] 3632428800,
xm 8 5 [6] 435891456000,
xm 9 5 [2,3] 4670265600,
xm 9 5 [1,4] 5708102400,
xp 9 5 [7] 1089728640000,
xp 10 5 [3,3] 3113510400,
xp 10 5 [2,4] 6745939200,
xp 10 5 [1,5] 8302694400,
xm 10 5 [8] 2397403008000,
xm 11 5 [3,4] 8302694400,
xm 11 5 [2,5] 9340531200,
xm 11 5 [1,6] 11416204800,
xp 11 5 [9] 4794806016000,
xp 12 5 [4,4] 5189184000,
xp 12 5 [3,5] 10897286400,
xp 12 5 [2,6] 12454041600,
xp 12 5 [1,7] 15048633600,
xm 12 5 [10] 8904639744000,
xm 13 5 [4,5] 12972960000,
xm 13 5 [3,6] 14010796800,
xm 13 5 [2,7] 16086470400,
xm 13 5 [1,8] 19199980800,
xp 13 5 [11] 15583119552000,
xp 14 5 [5,5] 7783776000,
xp 14 5 [4,6] 16086470400,
xp 14 5 [3,7] 17643225600,
xp 14 5 [2,8] 20237817600,
xp 14 5 [1,9] 23870246400,
xm 14 5 [12] 25971865920000,
xm 15 5 [5,6] 18681062400,
xm 15 5 [4,7] 19718899200,
xm 15 5 [3,8] 21794572800,
xm 15 5 [2,9] 24908083200,
xm 15 5 [1,10] 29059430400,
xp 15 5 [13] 41554985472000,
xp 16 5 [6,6] 10897286400,
xp 16 5 [5,7] 22313491200,
xp 16 5 [4,8] 23870246400,
xp 16 5 [3,9] 26464838400,
xp 16 5 [2,10] 30097267200,
xp 16 5 [1,11] 34767532800,
xm 16 5 [14] 64221341184000,
xm 17 5 [6,7] 25427001600,
xm 17 5 [5,8] 26464838400,
xm 17 5 [4,9] 28540512000,
xm 17 5 [3,10] 31654022400,
xm 17 5 [2,11] 35805369600,
xm 17 5 [1,12] 40994553600,
xp 17 5 [15] 96332011776000,
xp 18 5 [7,7] 14529715200,
xp 18 5 [6,8] 29578348800,
xp 18 5 [5,9] 31135104000,
xp 18 5 [4,10] 33729696000,
xp 18 5 [3,11] 37362124800,
xp 18 5 [2,12] 42032390400,
xp 18 5 [1,13] 47740492800,
xm 19 5 [7,8] 33210777600,
xm 19 5 [6,9] 34248614400,
xm 19 5 [5,10] 36324288000,
xm 19 5 [4,11] 39437798400,
xm 19 5 [3,12] 43589145600,
xm 19 5 [2,13] 48778329600,
xm 19 5 [1,14] 55005350400,
xm 6 6 [1,1] 605404800,
xp 6 6 [4] 36324288000,
xp 7 6 [1,2] 5189184000,
xm 7 6 [5] 326918592000,
xm 8 6 [2,2] 7005398400,
xm 8 6 [1,3] 15048633600,
xp 8 6 [6] 1634592960000,
xm 9 6 [1,1,1] 43243200,
xp 9 6 [2,3] 31135104000,
xp 9 6 [1,4] 35459424000,
xm 9 6 [7] 5993507520000,
xp 10 6 [1,1,2] 129729600,
xm 10 6 [3,3] 29578348800,
xm 10 6 [2,4] 61232371200,
xm 10 6 [1,5] 72648576000,
xp 10 6 [8] 17980522560000,
xm 11 6 [1,2,2] 129729600,
xm 11 6 [1,1,3] 129729600,
xp 11 6 [3,4] 103783680000,
xp 11 6 [2,5] 110529619200,
xp 11 6 [1,6] 134399865600,
xm 11 6 [9] 46749358656000,
xp 12 6 [2,2,2] 43243200,
xp 12 6 [1,2,3] 259459200,
xp 12 6 [1,1,4] 129729600,
xm 12 6 [4,4] 83891808000,
xm 12 6 [3,5] 171243072000,
xm 12 6 [2,6] 186810624000,
xm 12 6 [1,7] 230053824000,
xp 12 6 [10] 109081836864000,
xm 13 6 [2,2,3] 129729600,
xm 13 6 [1,3,3] 129729600,
xm 13 6 [1,2,4] 259459200,
xm 13 6 [1,1,5] 129729600,
xp 13 6 [4,5] 259459200000,
xp 13 6 [3,6] 269318649600,
xp 13 6 [2,7] 299415916800,
xp 13 6 [1,8] 370507737600,
xm 13 6 [11] 233746793280000,
xp 14 6 [2,3,3] 129729600,
xp 14 6 [2,2,4] 129729600,
xp 14 6 [1,3,4] 259459200,
xp 14 6 [1,2,5] 259459200,
xp 14 6 [1,1,6] 129729600,
xm 14 6 [5,5] 190702512000,
xm 14 6 [4,6] 386594208000,
xm 14 6 [3,7] 407350944000,
xm 14 6 [2,8] 459242784000,
xm 14 6 [1,9] 568215648000,
xp 14 6 [12] 467493586560000,
xm 15 6 [3,3,3] 43243200,
xm 15 6 [2,3,4] 259459200,
xm 15 6 [1,4,4] 129729600,
xm 15 6 [2,2,5] 129729600,
xm 15 6 [1,3,5] 259459200,
xm 15 6 [1,2,6] 259459200,
xm 15 6 [1,1,7] 129729600,
xp 15 6 [5,6] 544864320000,
xp 15 6 [4,7] 558529171200,
xp 15 6 [3,8] 596237241600,
xp 15 6 [2,9] 678745267200,
xp 15 6 [1,10] 837188352000,
xm 15 6 [13] 883043441280000,
xp 16 6 [3,3,4] 129729600,
xp 16 6 [2,4,4] 129729600,
xp 16 6 [2,3,5] 259459200,
xp 16 6 [1,4,5] 259459200,
xp 16 6 [2,2,6] 129729600,
xp 16 6 [1,3,6] 259459200,
xp 16 6 [1,2,7] 259459200,
xp 16 6 [1,1,8] 129729600,
xm 16 6 [6,6] 375956380800,
xm 16 6 [5,7] 759177619200,
xm 16 6 [4,8] 786161376000,
xm 16 6 [3,9] 848431584000,
xm 16 6 [2,10] 971934163200,
xm 16 6 [1,11] 1192993401600,
xp 16 6 [14] 1589478194304000,
xm 17 6 [3,4,4] 129729600,
xm 17 6 [3,3,5] 129729600,
xm 17 6 [2,4,5] 259459200,
xm 17 6 [1,5,5] 129729600,
xm 17 6 [2,3,6] 259459200,
xm 17 6 [1,4,6] 259459200,
xm 17 6 [2,2,7] 129729600,
xm 17 6 [1,3,7] 259459200,
xm 17 6 [1,2,8] 259459200,
xm 17 6 [1,1,9] 129729600,
xp 17 6 [6,7] 1017080064000,
xp 17 6 [5,8] 1035242208000,
xp 17 6 [4,9] 1081944864000,
xp 17 6 [3,10] 1177944768000,
xp 17 6 [2,11] 1354377024000,
xp 17 6 [1,12] 1652755104000,
xm 17 6 [15] 2745462335616000,
xp 18 6 [4,4,4] 43243200,
xp 18 6 [3,4,5] 259459200,
xp 18 6 [2,5,5] 129729600,
xp 18 6 [3,3,6] 129729600,
xp 18 6 [2,4,6] 259459200,
xp 18 6 [1,5,6] 259459200,
xp 18 6 [2,3,7] 259459200,
xp 18 6 [1,4,7] 259459200,
xp 18 6 [2,2,8] 129729600,
xp 18 6 [1,3,8] 259459200,
xp 18 6 [1,2,9] 259459200,
xp 18 6 [1,1,10] 129729600,
xm 18 6 [7,7] 670788518400,
xm 18 6 [6,8] 1351263513600,
xm 18 6 [5,9] 1385512128000,
xm 18 6 [4,10] 1459890432000,
xm 18 6 [3,11] 1600344345600,
xm 18 6 [2,12] 1843198156800,
xm 18 6 [1,13] 2235154521600,
xm 19 6 [4,4,5] 129729600,
xm 19 6 [3,5,5] 129729600,
xm 19 6 [3,4,6] 259459200,
xm 19 6 [2,5,6] 259459200,
xm 19 6 [1,6,6] 129729600,
xm 19 6 [3,3,7] 129729600,
xm 19 6 [2,4,7] 259459200,
xm 19 6 [1,5,7] 259459200,
xm 19 6 [2,3,8] 259459200,
xm 19 6 [1,4,8] 259459200,
xm 19 6 [2,2,9] 129729600,
xm 19 6 [1,3,9] 259459200,
xm 19 6 [1,2,10] 259459200,
xm 19 6 [1,1,11] 129729600,
xp 19 6 [7,8] 1743565824000,
xp 19 6 [6,9] 1766917152000,
xp 19 6 [5,10] 1823998176000,
xp 19 6 [4,11] 1935565632000,
xp 19 6 [3,12] 2132754624000,
xp 19 6 [2,13] 2457078624000,
xp 19 6 [1,14] 2960429472000,
xm 7 7 [1,2] 3113510400,
xp 7 7 [5] 196151155200,
xp 8 7 [2,2] 9340531200,
xp 8 7 [1,3] 20756736000,
xm 8 7 [6] 2157662707200,
xp 9 7 [1,1,1] 129729600,
xm 9 7 [2,3] 70572902400,
xm 9 7 [1,4] 83026944000,
xp 9 7 [7] 12945976243200,
xm 10 7 [1,1,2] 648648000,
xp 10 7 [3,3] 98594496000,
xp 10 7 [2,4] 207567360000,
xp 10 7 [1,5] 254270016000,
xm 10 7 [8] 56099230387200,
xp 11 7 [1,2,2] 908107200,
xp 11 7 [1,1,3] 1037836800,
xm 11 7 [3,4] 477404928000,
xm 11 7 [2,5] 518918400000,
xm 11 7 [1,6] 653837184000,
xp 11 7 [9] 196347306355200,
xm 12 7 [2,2,2] 389188800,
xm 12 7 [1,2,3] 2594592000,
xm 12 7 [1,1,4] 1556755200,
xp 12 7 [4,4] 503350848000,
xp 12 7 [3,5] 1037836800000,
xp 12 7 [2,6] 1155112358400,
xp 12 7 [1,7] 1482030950400,
xm 12 7 [10] 589041919065600,
xp 13 7 [2,2,3] 1556755200,
xp 13 7 [1,3,3] 1686484800,
xp 13 7 [1,2,4] 3632428800,
xp 13 7 [1,1,5] 2205403200,
xm 13 7 [4,5] 1971889920000,
xm 13 7 [3,6] 2075673600000,
xm 13 7 [2,7] 2353813862400,
xm 13 7 [1,8] 3051240192000,
xp 13 7 [11] 1570778450841600,
xm 14 7 [2,3,3] 1945944000,
xm 14 7 [2,2,4] 2075673600,
xm 14 7 [1,3,4] 4410806400,
xm 14 7 [1,2,5] 4929724800,
xm 14 7 [1,1,6] 2983780800,
xp 14 7 [5,5] 1779890112000,
xp 14 7 [4,6] 3632428800000,
xp 14 7 [3,7] 3884623142400,
xp 14 7 [2,8] 4471000934400,
xp 14 7 [1,9] 5822264448000,
xm 14 7 [12] 3814747666329600,
xp 15 7 [3,3,3] 778377600,
xp 15 7 [2,3,4] 4929724800,
xp 15 7 [1,4,4] 2724321600,
xp 15 7 [2,2,5] 2724321600,
xp 15 7 [1,3,5] 5708102400,
xp 15 7 [1,2,6] 6486480000,
xp 15 7 [1,1,7] 3891888000,
xm 15 7 [5,6] 6138804672000,
xm 15 7 [4,7] 6356750400000,
xm 15 7 [3,8] 6886047168000,
xm 15 7 [2,9] 8017289280000,
xm 15 7 [1,10] 10445827392000,
xp 15 7 [13] 8583182249241600,
xm 16 7 [3,3,4] 2854051200,
xm 16 7 [2,4,4] 2983780800,
xm 16 7 [2,3,5] 6227020800,
xm 16 7 [1,4,5] 6745939200,
xm 16 7 [2,2,6] 3502699200,
xm 16 7 [1,3,6] 7264857600,
xm 16 7 [1,2,7] 8302694400,
xm 16 7 [1,1,8] 4929724800,
xp 16 7 [6,6] 5012751744000,
xp 16 7 [5,7] 10170800640000,
xp 16 7 [4,8] 10653394752000,
xp 16 7 [3,9] 11665285632000,
xp 16 7 [2,10] 13699445760000,
xp 16 7 [1,11] 17809279488000,
xm 16 7 [14] 18120051415065600,
xp 17 7 [3,4,4] 3372969600,
xp 17 7 [3,3,5] 3502699200,
xp 17 7 [2,4,5] 7264857600,
xp 17 7 [1,5,5] 4021617600,
xp 17 7 [2,3,6] 7783776000,
xp 17 7 [1,4,6] 8302694400,
xp 17 7 [2,2,7] 4410806400,
xp 17 7 [1,3,7] 9081072000,
xp 17 7 [1,2,8] 10378368000,
xp 17 7 [1,1,9] 6097291200,
xm 17 7 [6,7] 15866448998400,
xm 17 7 [5,8] 16273281024000,
xm 17 7 [4,9] 17207334144000,
xm 17 7 [3,10] 19013170176000,
xm 17 7 [2,11] 22467091046400,
xm 17 7 [1,12] 29088489830400,
xp 17 7 [15] 36240102830131200,
xm 18 7 [4,4,4] 1297296000,
xm 18 7 [3,4,5] 8043235200,
xm 18 7 [2,5,5] 4281076800,
xm 18 7 [3,3,6] 4281076800,
xm 18 7 [2,4,6] 8821612800,
xm 18 7 [1,5,6] 9599990400,
xm 18 7 [2,3,7] 9599990400,
xm 18 7 [1,4,7] 10118908800,
xm 18 7 [2,2,8] 5448643200,
xm 18 7 [1,3,8] 11156745600,
xm 18 7 [1,2,9] 12713500800,
xm 18 7 [1,1,10] 7394587200,
xp 18 7 [7,7] 12074193331200,
xp 18 7 [6,8] 24409921536000,
xp 18 7 [5,9] 25255758528000,
xp 18 7 [4,10] 26921486592000,
xp 18 7 [3,11] 29972726784000,
xp 18 7 [2,12] 35564591462400,
xp 18 7 [1,13] 45804927168000,
xp 19 7 [4,4,5] 4540536000,
xp 19 7 [3,5,5] 4670265600,
xp 19 7 [3,4,6] 9599990400,
xp 19 7 [2,5,6] 10118908800,
xp 19 7 [1,6,6] 5578372800,
xp 19 7 [3,3,7] 5189184000,
xp 19 7 [2,4,7] 10637827200,
xp 19 7 [1,5,7] 11416204800,
xp 19 7 [2,3,8] 11675664000,
xp 19 7 [1,4,8] 12194582400,
xp 19 7 [2,2,9] 6616209600,
xp 19 7 [1,3,9] 13491878400,
xp 19 7 [1,2,10] 15308092800,
xp 19 7 [1,1,11] 8821612800,
xm 19 7 [7,8] 35917455974400,
xm 19 7 [6,9] 36614882304000,
xm 19 7 [5,10] 38161259136000,
xm 19 7 [4,11] 40963418496000,
xm 19 7 [3,12] 45891067622400,
xm 19 7 [2,13] 54588140006400,
xm 19 7 [1,14] 69887930112000,
xm 8 8 [2,2] 3943779840,
xm 8 8 [1,3] 9340531200,
xp 8 8 [6] 958961203200,
xm 9 8 [1,1,1] 129729600,
xp 9 8 [2,3] 67459392000,
xp 9 8 [1,4] 83545862400,
xm 9 8 [7] 12466495641600,
xp 10 8 [1,1,2] 1167566400,
xm 10 8 [3,3] 154637683200,
xm 10 8 [2,4] 332626694400,
xm 10 8 [1,5] 424994169600,
xp 10 8 [8] 87265469491200,
xm 11 8 [1,2,2] 2464862400,
xm 11 8 [1,1,3] 2983780800,
xp 11 8 [3,4] 1095436742400,
xp 11 8 [2,5] 1224128505600,
xp 11 8 [1,6] 1601901100800,
xm 11 8 [9] 436327347456000,
xp 12 8 [2,2,2] 1427025600,
xp 12 8 [1,2,3] 10118908800,
xp 12 8 [1,1,4] 6616209600,
xm 12 8 [4,4] 1559349792000,
xm 12 8 [3,5] 3253099449600,
xm 12 8 [2,6] 3723239520000,
xm 12 8 [1,7] 4958265312000,
xp 12 8 [10] 1745309389824000,
xm 13 8 [2,2,3] 7654046400,
xm 13 8 [1,3,3] 8821612800,
xm 13 8 [1,2,4] 19459440000,
xm 13 8 [1,1,5] 13102689600,
xp 13 8 [4,5] 7918694784000,
xp 13 8 [3,6] 8481721248000,
xp 13 8 [2,7] 9875120935680,
xp 13 8 [1,8] 13305586694400,
xm 13 8 [11] 5934051925401600,
xp 14 8 [2,3,3] 12194582400,
xp 14 8 [2,2,4] 13362148800,
xp 14 8 [1,3,4] 30097267200,
xp 14 8 [1,2,5] 35026992000,
xp 14 8 [1,1,6] 23740516800,
xm 14 8 [5,5] 8917612704000,
xm 14 8 [4,6] 18336500582400,
xm 14 8 [3,7] 19996520544000,
xm 14 8 [2,8] 23592625056000,
xm 14 8 [1,9] 32005330156800,
xp 14 8 [12] 17802155776204800,
xm 15 8 [3,3,3] 5967561600,
xm 15 8 [2,3,4] 38918880000,
xm 15 8 [1,4,4] 23351328000,
xm 15 8 [2,2,5] 22443220800,
xm 15 8 [1,3,5] 49556707200,
xm 15 8 [1,2,6] 59416156800,
xm 15 8 [1,1,7] 40086446400,
xp 15 8 [5,6] 37566578649600,
xp 15 8 [4,7] 39368263334400,
xp 15 8 [3,8] 43500410553600,
xp 15 8 [2,9] 51869526508800,
xp 15 8 [1,10] 70569269971200,
xm 15 8 [13] 48320137106841600,
xp 16 8 [3,3,4] 26724297600,
xp 16 8 [2,4,4] 28799971200,
xp 16 8 [2,3,5] 60972912000,
xp 16 8 [1,4,5] 71351280000]
def extA3_1 : PL := [
xp 16 8 [2,2,6] 36194558400,
xp 16 8 [1,3,6] 78616137600,
xp 16 8 [1,2,7] 95740444800,
xp 16 8 [1,1,8] 63956692800,
xm 16 8 [6,6] 36618514732800,
xm 16 8 [5,7] 74690000985600,
xm 16 8 [4,8] 79361304422400,
xm 16 8 [3,9] 88593381676800,
xm 16 8 [2,10] 106530315091200,
xm 16 8 [1,11] 144923011833600,
xp 16 8 [14] 120800342767104000,
xm 17 8 [3,4,4] 37621584000,
xm 17 8 [3,3,5] 39697257600,
xm 17 8 [2,4,5] 84843158400,
xm 17 8 [1,5,5] 51243192000,
xm 17 8 [2,3,6] 93145852800,
xm 17 8 [1,4,6] 106637731200,
xm 17 8 [2,2,7] 56172916800,
xm 17 8 [1,3,7] 120389068800,
xm 17 8 [1,2,8] 147632284800,
xm 17 8 [1,1,9] 97426929600,
xp 17 8 [6,7] 136542998592000,
xp 17 8 [5,8] 141272420889600,
xp 17 8 [4,9] 151685037504000,
xp 17 8 [3,10] 170746467091200,
xp 17 8 [2,11] 206661847392000,
xp 17 8 [1,12] 280496151936000,
xm 17 8 [15] 281867466456576000,
xp 18 8 [4,4,4] 16864848000,
xp 18 8 [3,4,5] 106378272000,
xp 18 8 [2,5,5] 59286427200,
xp 18 8 [3,3,6] 58118860800,
xp 18 8 [2,4,6] 123243120000,
xp 18 8 [1,5,6] 145556611200,
xp 18 8 [2,3,7] 138551212800,
xp 18 8 [1,4,7] 155675520000,
xp 18 8 [2,2,8] 84194510400,
xp 18 8 [1,3,8] 178507929600,
xp 18 8 [1,2,9] 219243024000,
xp 18 8 [1,1,10] 142832289600,
xm 18 8 [7,7] 120530525955840,
xm 18 8 [6,8] 244622285107200,
xm 18 8 [5,9] 255868284672000,
xm 18 8 [4,10] 277003831104000,
xm 18 8 [3,11] 313985588716800,
xm 18 8 [2,12] 381890316487680,
xm 18 8 [1,13] 516320694489600,
xm 19 8 [4,4,5] 68756688000,
xm 19 8 [3,5,5] 71999928000,
xm 19 8 [3,4,6] 149448499200,
xm 19 8 [2,5,6] 164756592000,
xm 19 8 [1,6,6] 98983684800,
xm 19 8 [3,3,7] 83545862400,
xm 19 8 [2,4,7] 175913337600,
xm 19 8 [1,5,7] 203675472000,
xm 19 8 [2,3,8] 200821420800,
xm 19 8 [1,4,8] 222097075200,
xm 19 8 [2,2,9] 122335012800,
xm 19 8 [1,3,9] 257124067200,
xm 19 8 [1,2,10] 315242928000,
xm 19 8 [1,1,11] 202767364800,
xp 19 8 [7,8] 412135371648000,
xp 19 8 [6,9] 422945479756800,
xp 19 8 [5,10] 446166040320000,
xp 19 8 [4,11] 486297113702400,
xp 19 8 [3,12] 554448742848000,
xp 19 8 [2,13] 676685161152000,
xp 19 8 [1,14] 910337511283200,
xp 9 9 [1,1,1] 43243200,
xm 9 9 [2,3] 23351328000,
xm 9 9 [1,4] 30270240000,
xp 9 9 [7] 4452319872000,
xm 10 9 [1,1,2] 908107200,
xp 10 9 [3,3] 116756640000,
xp 10 9 [2,4] 254270016000,
xp 10 9 [1,5] 337815878400,
xm 10 9 [8] 66784798080000,
xp 11 9 [1,2,2] 3243240000,
xp 11 9 [1,1,3] 4021617600,
xm 11 9 [3,4] 1349187840000,
xm 11 9 [2,5] 1536517382400,
xm 11 9 [1,6] 2081381702400,
xp 11 9 [9] 534278384640000,
xm 12 9 [2,2,2] 2724321600,
xm 12 9 [1,2,3] 19978358400,
xm 12 9 [1,1,4] 13621608000,
xp 12 9 [4,4] 2754591840000,
xp 12 9 [3,5] 5786459078400,
xp 12 9 [2,6] 6767214854400,
xp 12 9 [1,7] 9309915014400,
xm 12 9 [10] 3027577512960000,
xp 13 9 [2,2,3] 20108088000,
xp 13 9 [1,3,3] 24129705600,
xp 13 9 [1,2,4] 53708054400,
xp 13 9 [1,1,5] 38270232000,
xm 13 9 [4,5] 18772392038400,
xm 13 9 [3,6] 20334336422400,
xm 13 9 [2,7] 24202873094400,
xm 13 9 [1,8] 33683512262400,
xp 13 9 [11] 13624098808320000,
xm 14 9 [2,3,3] 41772931200,
xm 14 9 [2,2,4] 46313467200,
xm 14 9 [1,3,4] 108972864000,
xm 14 9 [1,2,5] 128951222400,
xm 14 9 [1,1,6] 93535041600,
xp 14 9 [5,5] 27036167558400,
xp 14 9 [4,6] 55841327942400,
xp 14 9 [3,7] 61744024742400,
xp 14 9 [2,8] 74439363398400,
xp 14 9 [1,9] 104406900998400,
xm 14 9 [12] 51771575471616000,
xp 15 9 [3,3,3] 25556731200,
xp 15 9 [2,3,4] 169167398400,
xp 15 9 [1,4,4] 107675568000,
xp 15 9 [2,2,5] 99502603200,
xp 15 9 [1,3,5] 229621392000,
xp 15 9 [1,2,6] 282032150400,
xp 15 9 [1,1,7] 205232227200,
xm 15 9 [5,6] 141359599180800,
xm 15 9 [4,7] 149261342630400,
xm 15 9 [3,8] 167447702822400,
xm 15 9 [2,9] 203899125830400,
xm 15 9 [1,10] 287248837075200,
xp 15 9 [13] 172571918238720000,
xm 16 9 [3,3,4] 140756616000,
xm 16 9 [2,4,4] 154378224000,
xm 16 9 [2,3,5] 328734806400,
xm 16 9 [1,4,5] 408648240000,
xm 16 9 [2,2,6] 200432232000,
xm 16 9 [1,3,6] 454313059200,
xm 16 9 [1,2,7] 570810240000,
xm 16 9 [1,1,8] 413318505600,
xp 16 9 [6,6] 166630406342400,
xp 16 9 [5,7] 340943399596800,
xp 16 9 [4,8] 365778315302400,
xp 16 9 [3,9] 414784968998400,
xp 16 9 [2,10] 509122777363200,
xp 16 9 [1,11] 718381811347200,
xm 16 9 [14] 517715754716160000,
xp 17 9 [3,4,4] 238053816000,
xp 17 9 [3,3,5] 252972720000,
xp 17 9 [2,4,5] 551350800000,
xp 17 9 [1,5,5] 356107752000,
xp 17 9 [2,3,6] 611545334400,
xp 17 9 [1,4,6] 743350608000,
xp 17 9 [2,2,7] 381145564800,
xp 17 9 [1,3,7] 850247798400,
xp 17 9 [1,2,8] 1082463782400,
xp 17 9 [1,1,9] 776431656000,
xm 17 9 [6,7] 738476407468800,
xm 17 9 [5,8] 768225999340800,
xm 17 9 [4,9] 833980225478400,
xm 17 9 [3,10] 953669792275200,
xm 17 9 [2,11] 1178083838131200,
xm 17 9 [1,12] 1661160544243200,
xp 17 9 [15] 1423718325469440000,
xm 18 9 [4,4,4] 125621496000,
xm 18 9 [3,4,5] 799134336000,
xm 18 9 [2,5,5] 458594136000,
xm 18 9 [3,3,6] 441859017600,
xm 18 9 [2,4,6] 956626070400,
xm 18 9 [1,5,6] 1207782576000,
xm 18 9 [2,3,7] 1091025936000,
xm 18 9 [1,4,7] 1299112214400,
xm 18 9 [2,2,8] 688864176000,
xm 18 9 [1,3,8] 1515501187200,
xm 18 9 [1,2,9] 1942571030400,
xm 18 9 [1,1,10] 1377079704000,
xp 18 9 [7,7] 762039973094400,
xp 18 9 [6,8] 1550215271404800,
xp 18 9 [5,9] 1633089134476800,
xp 18 9 [4,10] 1789003010995200,
xp 18 9 [3,11] 2059643172787200,
xp 18 9 [2,12] 2557189918483200,
xp 18 9 [1,13] 3596930284147200,
xp 19 9 [4,4,5] 598053456000,
xp 19 9 [3,5,5] 632431800000,
xp 19 9 [3,4,6] 1318052736000,
xp 19 9 [2,5,6] 1498895798400,
xp 19 9 [1,6,6] 965317953600,
xp 19 9 [3,3,7] 748799251200,
xp 19 9 [2,4,7] 1610463254400,
xp 19 9 [1,5,7] 1990570982400,
xp 19 9 [2,3,8] 1872517046400,
xp 19 9 [1,4,8] 2188538352000,
xp 19 9 [2,2,9] 1190528539200,
xp 19 9 [1,3,9] 2588105520000,
xp 19 9 [1,2,10] 3325488566400,
xp 19 9 [1,1,11] 2327478753600,
xm 19 9 [7,8] 3011486891212800,
xm 19 9 [6,9] 3103242042700800,
xm 19 9 [5,10] 3301049585433600,
xm 19 9 [4,11] 3642214563187200,
xm 19 9 [3,12] 4216792150771200,
xm 19 9 [2,13] 5255666787571200,
xm 19 9 [1,14] 7364582300275200,
xp 10 10 [1,1,2] 259459200,
xm 10 10 [3,3] 34285680000,
xm 10 10 [2,4] 74724249600,
xm 10 10 [1,5] 102745843200,
xp 10 10 [8] 20035439424000,
xm 11 10 [1,2,2] 2075673600,
xm 11 10 [1,1,3] 2594592000,
xp 11 10 [3,4] 853620768000,
xp 11 10 [2,5] 980755776000,
xp 11 10 [1,6] 1369944576000,
xm 11 10 [9] 340602470208000,
xp 12 10 [2,2,2] 2854051200,
xp 12 10 [1,2,3] 21275654400,
xp 12 10 [1,1,4] 14789174400,
xm 12 10 [4,4] 2800862064000,
xm 12 10 [3,5] 5899064371200,
xm 12 10 [2,6] 6992944358400,
xm 12 10 [1,7] 9897849561600,
xp 12 10 [10] 3065422231872000,
xm 13 10 [2,2,3] 30616185600,
xm 13 10 [1,3,3] 37621584000,
xm 13 10 [1,2,4] 84064780800,
xm 13 10 [1,1,5] 61751289600,
xp 13 10 [4,5] 27170567424000,
xp 13 10 [3,6] 29593916352000,
xp 13 10 [2,7] 35789802048000,
xp 13 10 [1,8] 51201678528000,
xm 13 10 [11] 19414340801856000,
xp 14 10 [2,3,3] 85880995200,
xp 14 10 [2,2,4] 95740444800,
xp 14 10 [1,3,4] 231956524800,
xp 14 10 [1,2,5] 276583507200,
xp 14 10 [1,1,6] 208864656000,
xm 14 10 [5,5] 51959299392000,
xm 14 10 [4,6] 107531308684800,
xm 14 10 [3,7] 119851469337600,
xm 14 10 [2,8] 146960804390400,
xm 14 10 [1,9] 211930425907200,
xp 14 10 [12] 97071704009280000,
xm 15 10 [3,3,3] 67459392000,
xm 15 10 [2,3,4] 449902252800,
xm 15 10 [1,4,4] 298118620800,
xm 15 10 [2,2,5] 267242976000,
xm 15 10 [1,3,5] 637231795200,
xm 15 10 [1,2,6] 791869478400,
xm 15 10 [1,1,7] 604799395200,
xp 15 10 [5,6] 345397276224000,
xp 15 10 [4,7] 366086552832000,
xp 15 10 [3,8] 414750720384000,
xp 15 10 [2,9] 513797713228800,
xp 15 10 [1,10] 744873114585600,
xm 15 10 [13] 407701156838976000,
xp 16 10 [3,3,4] 463653590400,
xp 16 10 [2,4,4] 513469756800,
xp 16 10 [2,3,5] 1096474579200,
xp 16 10 [1,4,5] 1424431008000,
xp 16 10 [2,2,6] 677966889600,
xp 16 10 [1,3,6] 1590484896000,
xp 16 10 [1,2,7] 2030527699200,
xp 16 10 [1,1,8] 1552863312000,
xm 16 10 [6,6] 501275174400000,
xm 16 10 [5,7] 1027181329574400,
xm 16 10 [4,8] 1107948902860800,
xm 16 10 [3,9] 1270383853939200,
xm 16 10 [2,10] 1586361570393600,
xm 16 10 [1,11] 2306301693696000,
xp 16 10 [14] 1494904241742912000,
xm 17 10 [3,4,4] 953253100800,
xm 17 10 [3,3,5] 1016561145600,
xm 17 10 [2,4,5] 2241727488000,
xm 17 10 [1,5,5] 1521987667200,
xm 17 10 [2,3,6] 2499111014400,
xm 17 10 [1,4,6] 3182007628800,
xm 17 10 [2,2,7] 1586074089600,
xm 17 10 [1,3,7] 3662785526400,
xm 17 10 [1,2,8] 4759000646400,
xm 17 10 [1,1,9] 3621790972800,
xp 17 10 [6,7] 2673758191104000,
xp 17 10 [5,8] 2789160454080000,
xp 17 10 [4,9] 3048297924672000,
xp 17 10 [3,10] 3527255011737600,
xp 17 10 [2,11] 4432729664563200,
xp 17 10 [1,12] 6448740102604800,
xm 17 10 [15] 4911828222869568000,
xp 18 10 [4,4,4] 598572374400,
xp 18 10 [3,4,5] 3824428608000,
xp 18 10 [2,5,5] 2234203171200,
xp 18 10 [3,3,6] 2127565440000,
xp 18 10 [2,4,6] 4668708844800,
xp 18 10 [1,5,6] 6207820819200,
xp 18 10 [2,3,7] 5363281123200,
xp 18 10 [1,4,7] 6696382492800,
xp 18 10 [2,2,8] 3461964105600,
xp 18 10 [1,3,8] 7878478608000,
xp 18 10 [1,2,9] 10349308569600,
xp 18 10 [1,1,10] 7808684083200,
xm 18 10 [7,7] 3258506579328000,
xm 18 10 [6,8] 6636291742080000,
xm 18 10 [5,9] 7018397305920000,
xm 18 10 [4,10] 7748406521856000,
xm 18 10 [3,11] 9030417780384000,
xm 18 10 [2,12] 11406843512064000,
xm 18 10 [1,13] 16575986883456000,
xm 19 10 [4,4,5] 3347542598400,
xm 19 10 [3,5,5] 3558742387200,
xm 19 10 [3,4,6] 7431949324800,
xm 19 10 [2,5,6] 8623385971200,
xm 19 10 [1,6,6] 5866372512000,
xm 19 10 [3,3,7] 4257984931200,
xm 19 10 [2,4,7] 9294606921600,
xm 19 10 [1,5,7] 12110517619200,
xm 19 10 [2,3,8] 10909480982400,
xm 19 10 [1,4,8] 13369673116800,
xm 19 10 [2,2,9] 7117225315200,
xm 19 10 [1,3,9] 15982167801600,
xm 19 10 [1,2,10] 21125686982400,
xm 19 10 [1,1,11] 15768632880000,
xp 19 10 [7,8] 14994385870464000,
xp 19 10 [6,9] 15483798570240000,
xp 19 10 [5,10] 16551670367232000,
xp 19 10 [4,11] 18419024694470400,
xp 19 10 [3,12] 21591451013932800,
xp 19 10 [2,13] 27384438604723200,
xp 19 10 [1,14] 39691541194905600,
xp 11 11 [1,2,2] 518918400,
xp 11 11 [1,1,3] 648648000,
xm 11 11 [3,4] 217945728000,
xm 11 11 [2,5] 250637587200,
xm 11 11 [1,6] 359610451200,
xp 11 11 [9] 88304344128000,
xm 12 11 [2,2,2] 1556755200,
xm 12 11 [1,2,3] 11675664000,
xm 12 11 [1,1,4] 8172964800,
xp 12 11 [4,4] 1525620096000,
xp 12 11 [3,5] 3214699488000,
xp 12 11 [2,6] 3835844812800,
xp 12 11 [1,7] 5565399840000,
xm 12 11 [10] 1677782538432000,
xp 13 11 [2,2,3] 27113486400,
xp 13 11 [1,3,3] 33729696000,
xp 13 11 [1,2,4] 75502627200,
xp 13 11 [1,1,5] 56302646400,
xm 13 11 [4,5] 23592625056000,
xm 13 11 [3,6] 25750287763200,
xm 13 11 [2,7] 31457352326400,
xm 13 11 [1,8] 46081510675200,
xp 13 11 [11] 16777825384320000,
xm 14 11 [2,3,3] 108972864000,
xm 14 11 [2,2,4] 121816094400,
xm 14 11 [1,3,4] 300453753600,
xm 14 11 [1,2,5] 359610451200,
xm 14 11 [1,1,6] 277880803200,
xp 14 11 [5,5] 63694639008000,
xp 14 11 [4,6] 131911651872000,
xp 14 11 [3,7] 147611528064000,
xp 14 11 [2,8] 183212962732800,
xp 14 11 [1,9] 270478432224000,
xm 14 11 [12] 117444777690240000,
xp 15 11 [3,3,3] 114162048000,
xp 15 11 [2,3,4] 764366803200,
xp 15 11 [1,4,4] 519956236800,
xp 15 11 [2,2,5] 456388732800,
xp 15 11 [1,3,5] 1112820508800,
xp 15 11 [1,2,6] 1391220230400,
xp 15 11 [1,1,7] 1095177283200,
xm 15 11 [5,6] 558812846592000,
xm 15 11 [4,7] 593266952678400,
xm 15 11 [3,8] 675999151027200,
xm 15 11 [2,9] 848612167603200,
xm 15 11 [1,10] 1260006523776000,
xp 15 11 [13] 645946277296320000,
xm 16 11 [3,3,4] 1002550348800,
xm 16 11 [2,4,4] 1116193478400,
xm 16 11 [2,3,5] 2387284099200,
xm 16 11 [1,4,5] 3198353558400,
xm 16 11 [2,2,6] 1487479593600,
xm 16 11 [1,3,6] 3579758582400,
xm 16 11 [1,2,7] 4609552147200,
xm 16 11 [1,1,8] 3656039587200,
xp 16 11 [6,6] 1024377613459200,
xp 16 11 [5,7] 2100394353657600,
xp 16 11 [4,8] 2271710593152000,
xp 16 11 [3,9] 2623529484576000,
xp 16 11 [2,10] 3321653240505600,
xp 16 11 [1,11] 4950089233689600,
xm 16 11 [14] 2971352875563072000,
xp 17 11 [3,4,4] 2548927180800,
xp 17 11 [3,3,5] 2723543222400,
xp 17 11 [2,4,5] 6047215574400,
xp 17 11 [1,5,5] 4257206553600,
xp 17 11 [2,3,6] 6760728374400,
xp 17 11 [1,4,6] 8908531632000,
xp 17 11 [2,2,7] 4335303772800,
xp 17 11 [1,3,7] 10290670790400,
xp 17 11 [1,2,8] 13523532422400,
xp 17 11 [1,1,9] 10728378460800,
xm 17 11 [6,7] 6694777478188800,
xm 17 11 [5,8] 6992687493792000,
xm 17 11 [4,9] 7671261517920000,
xm 17 11 [3,10] 8950276022688000,
xm 17 11 [2,11] 11407733976038400,
xm 17 11 [1,12] 17030123510400000,
xp 17 11 [15] 11885411502252288000,
xm 18 11 [4,4,4] 1930376448000]
def extA3_2 : PL := [
xm 18 11 [3,4,5] 12363749798400,
xm 18 11 [2,5,5] 7301181888000,
xm 18 11 [3,3,6] 6901874179200,
xm 18 11 [2,4,6] 15272546889600,
xm 18 11 [1,5,6] 21118941043200,
xm 18 11 [2,3,7] 17616241843200,
xm 18 11 [1,4,7] 22818917721600,
xm 18 11 [2,2,8] 11520766857600,
xm 18 11 [1,3,8] 26973897350400,
xm 18 11 [1,2,9] 35943920812800,
xm 18 11 [1,1,10] 28383539184000,
xp 18 11 [7,7] 9767910318566400,
xp 18 11 [6,8] 19903530885638400,
xp 18 11 [5,9] 21091324205952000,
xp 18 11 [4,10] 23395827847392000,
xp 18 11 [3,11] 27514446344985600,
xp 18 11 [2,12] 35256140138419200,
xp 18 11 [1,13] 52634435062809600,
xp 19 11 [4,4,5] 12799381795200,
xp 19 11 [3,5,5] 13647683649600,
xp 19 11 [3,4,6] 28535322816000,
xp 19 11 [2,5,6] 33534582681600,
xp 19 11 [1,6,6] 23803305926400,
xp 19 11 [3,3,7] 16427918707200,
xp 19 11 [2,4,7] 36211682707200,
xp 19 11 [1,5,7] 49172188665600,
xp 19 11 [2,3,8] 42730854566400,
xp 19 11 [1,4,8] 54413783424000,
xp 19 11 [2,2,9] 28321268976000,
xp 19 11 [1,3,9] 65438983209600,
xp 19 11 [1,2,10] 88001814700800,
xp 19 11 [1,1,11] 68955304017600,
xm 19 11 [7,8] 52874106866380800,
xm 19 11 [6,9] 54654966317952000,
xm 19 11 [5,10] 58581912445056000,
xm 19 11 [4,11] 65555957795328000,
xm 19 11 [3,12] 77586126089472000,
xm 19 11 [2,13] 99841937433638400,
xm 19 11 [1,14] 148843279480896000,
xp 12 12 [2,2,2] 345945600,
xp 12 12 [1,2,3] 2594592000,
xp 12 12 [1,1,4] 1816214400,
xm 12 12 [4,4] 344677132800,
xm 12 12 [3,5] 726485760000,
xm 12 12 [2,6] 867631564800,
xm 12 12 [1,7] 1286225740800,
xp 12 12 [10] 383493151641600,
xm 13 12 [2,2,3] 12972960000,
xm 13 12 [1,3,3] 16216200000,
xm 13 12 [1,2,4] 36324288000,
xm 13 12 [1,1,5] 27243216000,
xp 13 12 [4,5] 11289588710400,
xp 13 12 [3,6] 12329501184000,
xp 13 12 [2,7] 15137887564800,
xp 13 12 [1,8] 22632626016000,
xm 13 12 [11] 8053356184473600,
xp 14 12 [2,3,3] 83675592000,
xp 14 12 [2,2,4] 93664771200,
xp 14 12 [1,3,4] 233253820800,
xp 14 12 [1,2,5] 279697017600,
xp 14 12 [1,1,6] 218724105600,
xm 14 12 [5,5] 48260449036800,
xm 14 12 [4,6] 99974818944000,
xm 14 12 [3,7] 112061466316800,
xm 14 12 [2,8] 140173870636800,
xm 14 12 [1,9] 211114167264000,
xp 14 12 [12] 88586918029209600,
xm 15 12 [3,3,3] 124324200000,
xm 15 12 [2,3,4] 834161328000,
xm 15 12 [1,4,4] 576648072000,
xm 15 12 [2,2,5] 499458960000,
xm 15 12 [1,3,5] 1235025792000,
xm 15 12 [1,2,6] 1548971424000,
xm 15 12 [1,1,7] 1241512272000,
xp 15 12 [5,6] 594338000256000,
xp 15 12 [4,7] 631430287488000,
xp 15 12 [3,8] 721646845920000,
xp 15 12 [2,9] 914580707040000,
xp 15 12 [1,10] 1385537209056000,
xm 15 12 [13] 679166371557273600,
xp 16 12 [3,3,4] 1447652606400,
xp 16 12 [2,4,4] 1616560545600,
xp 16 12 [2,3,5] 3460666809600,
xp 16 12 [1,4,5] 4733054726400,
xp 16 12 [2,2,6] 2165705942400,
xp 16 12 [1,3,6] 5304902803200,
xp 16 12 [1,2,7] 6863733676800,
xp 16 12 [1,1,8] 5573961993600,
xm 16 12 [6,6] 1429978245696000,
xm 16 12 [5,7] 2932864526592000,
xm 16 12 [4,8] 3176245039968000,
xm 16 12 [3,9] 3683923667424000,
xm 16 12 [2,10] 4713893664480000,
xm 16 12 [1,11] 7171574233824000,
xp 16 12 [14] 4074998229343641600,
xm 17 12 [3,4,4] 4667022360000,
xm 17 12 [3,3,5] 4992643656000,
xm 17 12 [2,4,5] 11129761843200,
xm 17 12 [1,5,5] 8038564934400,
xm 17 12 [2,3,6] 12464419968000,
xm 17 12 [1,4,6] 16830599385600,
xm 17 12 [2,2,7] 8041418985600,
xm 17 12 [1,3,7] 19482791328000,
xm 17 12 [1,2,8] 25772082336000,
xm 17 12 [1,1,9] 21037211395200,
xp 17 12 [6,7] 11750151622809600,
xp 17 12 [5,8] 12280554205920000,
xp 17 12 [4,9] 13499508057235200,
xp 17 12 [3,10] 15835788704736000,
xp 17 12 [2,11] 20412179890502400,
xp 17 12 [1,12] 31134850248902400,
xm 17 12 [15] 20374991146718208000,
xp 18 12 [4,4,4] 4341401064000,
xp 18 12 [3,4,5] 27846977558400,
xp 18 12 [2,5,5] 16552978041600,
xp 18 12 [3,3,6] 15578060097600,
xp 18 12 [2,4,6] 34647662649600,
xp 18 12 [1,5,6] 49319042572800,
xp 18 12 [2,3,7] 40064132908800,
xp 18 12 [1,4,7] 53344292601600,
xp 18 12 [2,2,8] 26409573590400,
xp 18 12 [1,3,8] 63236952979200,
xp 18 12 [1,2,9] 84987936633600,
xp 18 12 [1,1,10] 69344882006400,
xm 18 12 [7,7] 20910122397964800,
xm 18 12 [6,8] 42617976841440000,
xm 18 12 [5,9] 45207012263212800,
xm 18 12 [4,10] 50285168482348800,
xm 18 12 [3,11] 59513046649056000,
xm 18 12 [2,12] 77154028445894400,
xm 18 12 [1,13] 117804302519904000,
xm 19 12 [4,4,5] 34576181640000,
xm 19 12 [3,5,5] 36934536038400,
xm 19 12 [3,4,6] 77283295689600,
xm 19 12 [2,5,6] 91556924659200,
xm 19 12 [1,6,6] 67128840979200,
xm 19 12 [3,3,7] 44625036456000,
xm 19 12 [2,4,7] 98982128044800,
xm 19 12 [1,5,7] 138731796403200,
xm 19 12 [2,3,8] 117184747680000,
xm 19 12 [1,4,8] 153749813817600,
xm 19 12 [2,2,9] 78437889129600,
xm 19 12 [1,3,9] 185576117126400,
xm 19 12 [1,2,10] 252223920748800,
xm 19 12 [1,1,11] 204918022108800,
xp 19 12 [7,8] 134994504054009600,
xp 19 12 [6,9] 139612221901152000,
xp 19 12 [5,10] 149862192883603200,
xp 19 12 [4,11] 168287673441888000,
xp 19 12 [3,12] 200578271724230400,
xp 19 12 [2,13] 261230741233862400,
xp 19 12 [1,14] 398713036097376000,
xp 13 13 [2,2,3] 2594592000,
xp 13 13 [1,3,3] 3243240000,
xp 13 13 [1,2,4] 7264857600,
xp 13 13 [1,1,5] 5448643200,
xm 13 13 [4,5] 2288430144000,
xm 13 13 [3,6] 2500148851200,
xm 13 13 [2,7] 3072100711680,
xm 13 13 [1,8] 4674935865600,
xp 13 13 [11] 1647277401369600,
xm 14 13 [2,3,3] 35675640000,
xm 14 13 [2,2,4] 39956716800,
xm 14 13 [1,3,4] 99891792000,
xm 14 13 [1,2,5] 119870150400,
xm 14 13 [1,1,6] 94183689600,
xp 14 13 [5,5] 20595871296000,
xp 14 13 [4,6] 42673773542400,
xp 14 13 [3,7] 47862438624000,
xp 14 13 [2,8] 60106318272000,
xp 14 13 [1,9] 92088816019200,
xm 14 13 [12] 37887380231500800,
xp 15 13 [3,3,3] 84324240000,
xp 15 13 [2,3,4] 566399433600,
xp 15 13 [1,4,4] 395026632000,
xp 15 13 [2,2,5] 339632092800,
xp 15 13 [1,3,5] 846355910400,
xp 15 13 [1,2,6] 1063263801600,
xp 15 13 [1,1,7] 860496436800,
xm 15 13 [5,6] 399538108569600,
xm 15 13 [4,7] 424631445638400,
xm 15 13 [3,8] 485970714028800,
xm 15 13 [2,9] 619688720851200,
xm 15 13 [1,10] 954948407212800,
xp 15 13 [13] 454648562778009600,
xm 16 13 [3,3,4] 1384214832000,
xm 16 13 [2,4,4] 1548322776000,
xm 16 13 [2,3,5] 3316407494400,
xm 16 13 [1,4,5] 4595022432000,
xm 16 13 [2,2,6] 2080603324800,
xm 16 13 [1,3,6] 5154416467200,
xm 16 13 [1,2,7] 6687041961600,
xm 16 13 [1,1,8] 5509745841600,
xp 16 13 [6,6] 1342785424780800,
xp 16 13 [5,7] 2754496186041600,
xp 16 13 [4,8] 2985057858182400,
xp 16 13 [3,9] 3470286518899200,
xp 16 13 [2,10] 4474507266028800,
xp 16 13 [1,11] 6926845051526400,
xm 16 13 [14] 3788738023150080000,
xp 17 13 [3,4,4] 5878048176000,
xp 17 13 [3,3,5] 6292793707200,
xp 17 13 [2,4,5] 14061131884800,
xp 17 13 [1,5,5] 10334259936000,
xp 17 13 [2,3,6] 15764222073600,
xp 17 13 [1,4,6] 21644605382400,
xp 17 13 [2,2,7] 10207254657600,
xp 17 13 [1,3,7] 25087888425600,
xp 17 13 [1,2,8] 33315339657600,
xp 17 13 [1,1,9] 27715691203200,
xm 17 13 [6,7] 14420379093120000,
xm 17 13 [5,8] 15076548296409600,
xm 17 13 [4,9] 16590827949696000,
xm 17 13 [3,10] 19526687673292800,
xm 17 13 [2,11] 25387498936800000,
xm 17 13 [1,12] 39427889653152000,
xp 17 13 [15] 24626797150475520000,
xm 18 13 [4,4,4] 6892533648000,
xm 18 13 [3,4,5] 44252063856000,
xm 18 13 [2,5,5] 26411389804800,
xm 18 13 [3,3,6] 24788861697600,
xm 18 13 [2,4,6] 55305804153600,
xm 18 13 [1,5,6] 80381497996800,
xm 18 13 [2,3,7] 64053471081600,
xm 18 13 [1,4,7] 87000042729600,
xm 18 13 [2,2,8] 42429752164800,
xm 18 13 [1,3,8] 103319507491200,
xm 18 13 [1,2,9] 139580227987200,
xm 18 13 [1,1,10] 116539472649600,
xp 18 13 [7,7] 32133495321607680,
xp 18 13 [6,8] 65502684075628800,
xp 18 13 [5,9] 69521119668000000,
xp 18 13 [4,10] 77451814440000000,
xp 18 13 [3,11] 92050971300288000,
xp 18 13 [2,12] 120450405266231040,
xp 18 13 [1,13] 187408309542854400,
xp 19 13 [4,4,5] 67149986904000,
xp 19 13 [3,5,5] 71813117376000,
xp 19 13 [3,4,6] 150340260470400,
xp 19 13 [2,5,6] 179019583142400,
xp 19 13 [1,6,6] 134474070931200,
xp 19 13 [3,3,7] 86977599508800,
xp 19 13 [2,4,7] 193688627932800,
xp 19 13 [1,5,7] 277988997686400,
xp 19 13 [2,3,8] 229793413449600,
xp 19 13 [1,4,8] 308384642966400,
xp 19 13 [2,2,9] 154778050627200,
xp 19 13 [1,3,9] 373087280966400,
xp 19 13 [1,2,10] 510458473324800,
xp 19 13 [1,1,11] 425864395756800,
xm 19 13 [7,8] 252130079545344000,
xm 19 13 [6,9] 260832681004896000,
xm 19 13 [5,10] 280213800650784000,
xm 19 13 [4,11] 315328579633267200,
xm 19 13 [3,12] 377702909648064000,
xm 19 13 [2,13] 496743472985760000,
xm 19 13 [1,14] 773289971963308800,
xp 14 14 [2,3,3] 6486480000,
xp 14 14 [2,2,4] 7264857600,
xp 14 14 [1,3,4] 18162144000,
xp 14 14 [1,2,5] 21794572800,
xp 14 14 [1,1,6] 17124307200,
xm 14 14 [5,5] 3786311692800,
xm 14 14 [4,6] 7846046208000,
xm 14 14 [3,7] 8803450656000,
xm 14 14 [2,8] 11063340288000,
xm 14 14 [1,9] 17202144960000,
xp 14 14 [12] 7016181524352000,
xm 15 14 [3,3,3] 32432400000,
xm 15 14 [2,3,4] 217945728000,
xm 15 14 [1,4,4] 152562009600,
xm 15 14 [2,2,5] 130767436800,
xm 15 14 [1,3,5] 326918592000,
xm 15 14 [1,2,6] 410983372800,
xm 15 14 [1,1,7] 333923990400,
xp 15 14 [5,6] 153913273113600,
xp 15 14 [4,7] 163622755296000,
xp 15 14 [3,8] 187368461280000,
xp 15 14 [2,9] 239683219776000,
xp 15 14 [1,10] 374777398195200,
xm 15 14 [13] 175404538108800000,
xp 16 14 [3,3,4] 841945104000,
xp 16 14 [2,4,4] 942615273600,
xp 16 14 [2,3,5] 2019630412800,
xp 16 14 [1,4,5] 2818764748800,
xp 16 14 [2,2,6] 1268755488000,
xp 16 14 [1,3,6] 3163326566400,
xp 16 14 [1,2,7] 4109833728000,
xp 16 14 [1,1,8] 3413445235200,
xm 16 14 [6,6] 811215794188800,
xm 16 14 [5,7] 1664277168153600,
xm 16 14 [4,8] 1804302628128000,
xm 16 14 [3,9] 2100010872960000,
xm 16 14 [2,10] 2721149970739200,
xm 16 14 [1,11] 4275077065459200,
xp 16 14 [14] 2280258995414400000,
xm 17 14 [3,4,4] 5010935529600,
xm 17 14 [3,3,5] 5366913552000,
xm 17 14 [2,4,5] 12008809612800,
xm 17 14 [1,5,5] 8924877561600,
xm 17 14 [2,3,6] 13472159500800,
xm 17 14 [1,4,6] 18696629952000,
xm 17 14 [2,2,7] 8741958825600,
xm 17 14 [1,3,7] 21687935068800,
xm 17 14 [1,2,8] 28865873836800,
xm 17 14 [1,1,9] 24302245968000,
xp 17 14 [6,7] 12121749089049600,
xp 17 14 [5,8] 12676348318233600,
xp 17 14 [4,9] 13958022798720000,
xp 17 14 [3,10] 16458782935795200,
xp 17 14 [2,11] 21532268889331200,
xp 17 14 [1,12] 33952217550451200,
xm 17 14 [15] 20522330958729600000,
xp 18 14 [4,4,4] 7698932841600,
xp 18 14 [3,4,5] 49459150540800,
xp 18 14 [2,5,5] 29593397433600,
xp 18 14 [3,3,6] 27729961459200,
xp 18 14 [2,4,6] 61985840716800,
xp 18 14 [1,5,6] 91397097792000,
xp 18 14 [2,3,7] 71863711920000,
xp 18 14 [1,4,7] 98965263196800,
xp 18 14 [2,2,8] 47748276576000,
xp 18 14 [1,3,8] 117663968822400,
xp 18 14 [1,2,9] 159467256748800,
xp 18 14 [1,1,10] 135239216112000,
xm 18 14 [7,7] 35171667487756800,
xm 18 14 [6,8] 71703606912537600,
xm 18 14 [5,9] 76130069080665600,
xm 18 14 [4,10] 84890939368435200,
xm 18 14 [3,11] 101157557480179200,
xm 18 14 [2,12] 133311806839411200,
xm 18 14 [1,13] 210729486827059200,
xm 19 14 [4,4,5] 94172532854400,
xm 19 14 [3,5,5] 100789001913600,
xm 19 14 [3,4,6] 211072653792000,
xm 19 14 [2,5,6] 252160093785600,
xm 19 14 [1,6,6] 192783893702400,
xm 19 14 [3,3,7] 122270666918400,
xm 19 14 [2,4,7] 272965348656000,
xm 19 14 [1,5,7] 398604055449600,
xm 19 14 [2,3,8] 324302983804800,
xm 19 14 [1,4,8] 442477827792000,
xm 19 14 [2,2,9] 219313856361600,
xm 19 14 [1,3,9] 536133517920000,
xm 19 14 [1,2,10] 736636322822400,
xm 19 14 [1,1,11] 626330097993600,
xp 19 14 [7,8] 344430574833945600,
xp 19 14 [6,9] 356393216276697600,
xp 19 14 [5,10] 383071260604032000,
xp 19 14 [4,11] 431617643019763200,
xp 19 14 [3,12] 518722424239219200,
xp 19 14 [2,13] 687524779112371200,
xp 19 14 [1,14] 1088209754426995200,
xp 15 15 [3,3,3] 5405400000,
xp 15 15 [2,3,4] 36324288000,
xp 15 15 [1,4,4] 25427001600,
xp 15 15 [2,2,5] 21794572800,
xp 15 15 [1,3,5] 54486432000,
xp 15 15 [1,2,6] 68497228800,
xp 15 15 [1,1,7] 55653998400,
xm 15 15 [5,6] 25891952486400,
xm 15 15 [4,7] 27530177875200,
xm 15 15 [3,8] 31537265760000,
xm 15 15 [2,9] 40367700172800,
xm 15 15 [1,10] 63915525273600,
xp 15 15 [13] 29683844910720000,
xm 16 15 [3,3,4] 295134840000,
xm 16 15 [2,4,4] 330551020800,
xm 16 15 [2,3,5] 708323616000,
xm 16 15 [1,4,5] 991653062400,
xm 16 15 [2,2,6] 445231987200,
xm 16 15 [1,3,6] 1113079968000,
xm 16 15 [1,2,7] 1447003958400,
xm 16 15 [1,1,8] 1205836632000,
xp 16 15 [6,6] 284811477350400,
xp 16 15 [5,7] 584366983200000,
xp 16 15 [4,8] 633713528448000,
xp 16 15 [3,9] 737972018784000,
xp 16 15 [2,10] 958732879104000,
xp 16 15 [1,11] 1525256853120000,
xm 16 15 [14] 801463812589440000,
xp 17 15 [3,4,4] 2763370209600,
xp 17 15 [3,3,5] 2960429472000,
xp 17 15 [2,4,5] 6629182560000,
xp 17 15 [1,5,5] 4958265312000,
xp 17 15 [2,3,6] 7439733100800,
xp 17 15 [1,4,6] 10388227449600,
xp 17 15 [2,2,7] 4833335707200,
xp 17 15 [1,3,7] 12055512268800,
xp 17 15 [1,2,8] 16065454204800,
xp 17 15 [1,1,9] 13616678275200,
xm 17 15 [6,7] 6650276074041600,
xm 17 15 [5,8] 6955785130694400,
xm 17 15 [4,9] 7662071473056000,
xm 17 15 [3,10] 9043626329337600,
xm 17 15 [2,11] 11879571947443200,
xm 17 15 [1,12] 18974195252812800,
xp 17 15 [15] 11220493376252160000,
xm 18 15 [4,4,4] 5922372456000,
xm 18 15 [3,4,5] 38060588966400]
def extA3_3 : PL := [
xm 18 15 [2,5,5] 22808020435200,
xm 18 15 [3,3,6] 21350897568000,
xm 18 15 [2,4,6] 47781487353600,
xm 18 15 [1,5,6] 71115691046400,
xm 18 15 [2,3,7] 55431382406400,
xm 18 15 [1,4,7] 77025133785600,
xm 18 15 [2,2,8] 36898600939200,
xm 18 15 [1,3,8] 91643584032000,
xm 18 15 [1,2,9] 124442340422400,
xm 18 15 [1,1,10] 106595958268800,
xp 18 15 [7,7] 26757774582739200,
xp 18 15 [6,8] 54554943239596800,
xp 18 15 [5,9] 57938038494336000,
xp 18 15 [4,10] 64640882386080000,
xp 18 15 [3,11] 77145312692448000,
xp 18 15 [2,12] 102192209159040000,
xp 18 15 [1,13] 163710902234880000,
xp 19 15 [4,4,5] 94559386521600,
xp 19 15 [3,5,5] 101253952800000,
xp 19 15 [3,4,6] 212094404121600,
xp 19 15 [2,5,6] 253909886630400,
xp 19 15 [1,6,6] 196532560224000,
xp 19 15 [3,3,7] 122967314870400,
xp 19 15 [2,4,7] 274955660179200,
xp 19 15 [1,5,7] 406405734134400,
xp 19 15 [2,3,8] 326971521676800,
xp 19 15 [1,4,8] 451333948665600,
xp 19 15 [2,2,9] 221688426960000,
xp 19 15 [1,3,9] 547412728262400,
xp 19 15 [1,2,10] 754148780985600,
xp 19 15 [1,1,11] 649667674656000,
xm 19 15 [7,8] 340160800076697600,
xm 19 15 [6,9] 352030981676774400,
xm 19 15 [5,10] 378516942131328000,
xm 19 15 [4,11] 426812854570502400,
xm 19 15 [3,12] 514039885700140800,
xm 19 15 [2,13] 685389419518003200,
xm 19 15 [1,14] 1100137263018393600,
xp 16 16 [3,3,4] 45405360000,
xp 16 16 [2,4,4] 50854003200,
xp 16 16 [2,3,5] 108972864000,
xp 16 16 [1,4,5] 152562009600,
xp 16 16 [2,2,6] 68497228800,
xp 16 16 [1,3,6] 171243072000,
xp 16 16 [1,2,7] 222615993600,
xp 16 16 [1,1,8] 185513328000,
xm 16 16 [6,6] 44164905523200,
xm 16 16 [5,7] 90621833702400,
xm 16 16 [4,8] 98293523328000,
xm 16 16 [3,9] 114504534144000,
xm 16 16 [2,10] 148838251161600,
xm 16 16 [1,11] 239347998489600,
xp 16 16 [14] 124903451312640000,
xm 17 16 [3,4,4] 889945056000,
xm 17 16 [3,3,5] 953512560000,
xm 17 16 [2,4,5] 2135868134400,
xm 17 16 [1,5,5] 1601901100800,
xm 17 16 [2,3,6] 2397403008000,
xm 17 16 [1,4,6] 3356364211200,
xm 17 16 [2,2,7] 1558311955200,
xm 17 16 [1,3,7] 3895779888000,
xm 17 16 [1,2,8] 5194373184000,
xm 17 16 [1,1,9] 4415217206400,
xp 17 16 [6,7] 2145127714329600,
xp 17 16 [5,8] 2243969215488000,
xp 17 16 [4,9] 2472521635584000,
xp 17 16 [3,10] 2919777404544000,
xp 17 16 [2,11] 3843647269862400,
xp 17 16 [1,12] 6206622117696000,
xm 17 16 [15] 3622200088066560000,
xp 18 16 [4,4,4] 2987672688000,
xp 18 16 [3,4,5] 19204651065600,
xp 18 16 [2,5,5] 11518431724800,
xp 18 16 [3,3,6] 10776637872000,
xp 18 16 [2,4,6] 24132819110400,
xp 18 16 [1,5,6] 36113607129600,
xp 18 16 [2,3,7] 28006804425600,
xp 18 16 [1,4,7] 39120479798400,
xp 18 16 [2,2,8] 18662640796800,
xp 18 16 [1,3,8] 46563845328000,
xp 18 16 [1,2,9] 63297147513600,
xp 18 16 [1,1,10] 54530799523200,
xm 18 16 [7,7] 13444910057779200,
xm 18 16 [6,8] 27413823915878400,
xm 18 16 [5,9] 29119656069504000,
xm 18 16 [4,10] 32500585877760000,
xm 18 16 [3,11] 38819965850265600,
xm 18 16 [2,12] 51598266066547200,
xm 18 16 [1,13] 83600501394009600,
xm 19 16 [4,4,5] 66300906672000,
xm 19 16 [3,5,5] 71017615468800,
xm 19 16 [3,4,6] 148780651219200,
xm 19 16 [2,5,6] 178344989222400,
xm 19 16 [1,6,6] 139169244614400,
xm 19 16 [3,3,7] 86306508288000,
xm 19 16 [2,4,7] 193170747369600,
xm 19 16 [1,5,7] 287808231110400,
xm 19 16 [2,3,8] 229851013392000,
xm 19 16 [1,4,8] 319713669475200,
xm 19 16 [2,2,9] 156090914179200,
xm 19 16 [1,3,9] 388019676844800,
xm 19 16 [1,2,10] 535445432121600,
xm 19 16 [1,1,11] 465203340201600,
xp 19 16 [7,8] 236346057621273600,
xp 19 16 [6,9] 244623810727296000,
xp 19 16 [5,10] 263098779495552000,
xp 19 16 [4,11] 296814983617152000,
xp 19 16 [3,12] 357930852447168000,
xp 19 16 [2,13] 479313139367462400,
xp 19 16 [1,14] 778526296067520000,
xp 17 17 [3,4,4] 127135008000,
xp 17 17 [3,3,5] 136216080000,
xp 17 17 [2,4,5] 305124019200,
xp 17 17 [1,5,5] 228843014400,
xp 17 17 [2,3,6] 342486144000,
xp 17 17 [1,4,6] 479480601600,
xp 17 17 [2,2,7] 222615993600,
xp 17 17 [1,3,7] 556539984000,
xp 17 17 [1,2,8] 742053312000,
xp 17 17 [1,1,9] 630745315200,
xm 17 17 [6,7] 308545767129600,
xm 17 17 [5,8] 322793190720000,
xm 17 17 [4,9] 355740357772800,
xm 17 17 [3,10] 420223826880000,
xm 17 17 [2,11] 553450343846400,
xm 17 17 [1,12] 902080481702400,
xp 17 17 [15] 523206679387392000,
xm 18 17 [4,4,4] 889945056000,
xm 18 17 [3,4,5] 5721075360000,
xm 18 17 [2,5,5] 3432645216000,
xm 18 17 [3,3,6] 3210807600000,
xm 18 17 [2,4,6] 7192209024000,
xm 18 17 [1,5,6] 10788313536000,
xm 18 17 [2,3,7] 8348099760000,
xm 18 17 [1,4,7] 11687339664000,
xm 18 17 [2,2,8] 5565399840000,
xm 18 17 [1,3,8] 13913499600000,
xm 18 17 [1,2,9] 18922359456000,
xm 18 17 [1,1,10] 16342037712000,
xp 18 17 [7,7] 4011094972684800,
xp 18 17 [6,8] 8178911604864000,
xp 18 17 [5,9] 8689147462195200,
xp 18 17 [4,10] 9700633585843200,
xp 18 17 [3,11] 11591952083712000,
xp 18 17 [2,12] 15435599353574400,
xp 18 17 [1,13] 25250543398080000,
xp 19 17 [4,4,5] 30830239440000,
xp 19 17 [3,5,5] 33029675078400,
xp 19 17 [3,4,6] 69202438905600,
xp 19 17 [2,5,6] 83015527795200,
xp 19 17 [1,6,6] 65089491667200,
xp 19 17 [3,3,7] 40156500384000,
xp 19 17 [2,4,7] 89928299260800,
xp 19 17 [1,5,7] 134614178899200,
xp 19 17 [2,3,8] 107041190256000,
xp 19 17 [1,4,8] 149560845033600,
xp 19 17 [2,2,9] 72758327241600,
xp 19 17 [1,3,9] 181580445446400,
xp 19 17 [1,2,10] 250807273516800,
xp 19 17 [1,1,11] 218983305340800,
xm 19 17 [7,8] 109548439986585600,
xm 19 17 [6,9] 113396134819968000,
xm 19 17 [5,10] 121985226511948800,
xm 19 17 [4,11] 137665325685888000,
xm 19 17 [3,12] 166130976441830400,
xm 19 17 [2,13] 223106862384806400,
xm 19 17 [1,14] 366036503152320000,
xp 18 18 [4,4,4] 118659340800,
xp 18 18 [3,4,5] 762810048000,
xp 18 18 [2,5,5] 457686028800,
xp 18 18 [3,3,6] 428107680000,
xp 18 18 [2,4,6] 958961203200,
xp 18 18 [1,5,6] 1438441804800,
xp 18 18 [2,3,7] 1113079968000,
xp 18 18 [1,4,7] 1558311955200,
xp 18 18 [2,2,8] 742053312000,
xp 18 18 [1,3,8] 1855133280000,
xp 18 18 [1,2,9] 2522981260800,
xp 18 18 [1,1,10] 2178938361600,
xm 18 18 [7,7] 537996071733120,
xm 18 18 [6,8] 1097051616460800,
xm 18 18 [5,9] 1165617342489600,
xm 18 18 [4,10] 1301552514662400,
xm 18 18 [3,11] 1555761990182400,
xm 18 18 [2,12] 2072472081039360,
xm 18 18 [1,13] 3418139716992000,
xm 19 18 [4,4,5] 8543472537600,
xm 19 18 [3,5,5] 9153720576000,
xm 19 18 [3,4,6] 19179224064000,
xm 19 18 [2,5,6] 23015068876800,
xm 19 18 [1,6,6] 18083268403200,
xm 19 18 [3,3,7] 11130799680000,
xm 19 18 [2,4,7] 24932991283200,
xm 19 18 [1,5,7] 37399486924800,
xm 19 18 [2,3,8] 29682132480000,
xm 19 18 [1,4,8] 41554985472000,
xm 19 18 [2,2,9] 20183850086400,
xm 19 18 [1,3,9] 50459625216000,
xm 19 18 [1,2,10] 69726027571200,
xm 19 18 [1,1,11] 61010274124800,
xp 19 18 [7,8] 30401553165984000,
xp 19 18 [6,9] 31471668247219200,
xp 19 18 [5,10] 33860702139264000,
xp 19 18 [4,11] 38222936739187200,
xp 19 18 [3,12] 46144886179392000,
xp 19 18 [2,13] 62066221176960000,
xp 19 18 [1,14] 102698393301504000,
xp 19 19 [4,4,5] 1067934067200,
xp 19 19 [3,5,5] 1144215072000,
xp 19 19 [3,4,6] 2397403008000,
xp 19 19 [2,5,6] 2876883609600,
xp 19 19 [1,6,6] 2260408550400,
xp 19 19 [3,3,7] 1391349960000,
xp 19 19 [2,4,7] 3116623910400,
xp 19 19 [1,5,7] 4674935865600,
xp 19 19 [2,3,8] 3710266560000,
xp 19 19 [1,4,8] 5194373184000,
xp 19 19 [2,2,9] 2522981260800,
xp 19 19 [1,3,9] 6307453152000,
xp 19 19 [1,2,10] 8715753446400,
xp 19 19 [1,1,11] 7626284265600,
xm 19 19 [7,8] 3820090450176000,
xm 19 19 [6,9] 3954773126304000,
xm 19 19 [5,10] 4255466620204800,
xm 19 19 [4,11] 4804559087328000,
xm 19 19 [3,12] 5801842414368000,
xm 19 19 [2,13] 7806465707040000,
xm 19 19 [1,14] 13010776178400000]
/-- row 3 -/
def extA3 : PL := extA3_0 ++ extA3_1 ++ extA3_2 ++ extA3_3
def extA4_0 : PL := [
xp 7 7 [1,2] 1037836800,
xm 7 7 [5] 65383718400,
xm 8 7 [2,2] 3113510400,
xm 8 7 [1,3] 7783776000,
xp 8 7 [6] 719220902400,
xm 9 7 [1,1,1] 129729600,
xp 9 7 [2,3] 24389164800,
xp 9 7 [1,4] 33729696000,
xm 9 7 [7] 4315325414400,
xp 10 7 [1,1,2] 648648000,
xm 10 7 [3,3] 33729696000,
xm 10 7 [2,4] 75243168000,
xm 10 7 [1,5] 108972864000,
xp 10 7 [8] 18699743462400,
xm 11 7 [1,2,2] 908107200,
xm 11 7 [1,1,3] 1037836800,
xp 11 7 [3,4] 166053888000,
xp 11 7 [2,5] 197188992000,
xp 11 7 [1,6] 290594304000,
xm 11 7 [9] 65449102118400,
xp 12 7 [2,2,2] 389188800,
xp 12 7 [1,2,3] 2594592000,
xp 12 7 [1,1,4] 1556755200,
xm 12 7 [4,4] 173837664000,
xm 12 7 [3,5] 371026656000,
xm 12 7 [2,6] 457686028800,
xm 12 7 [1,7] 675631756800,
xp 12 7 [10] 196347306355200,
xm 13 7 [2,2,3] 1556755200,
xm 13 7 [1,3,3] 1686484800,
xm 13 7 [1,2,4] 3632428800,
xm 13 7 [1,1,5] 2205403200,
xp 13 7 [4,5] 687566880000,
xp 13 7 [3,6] 765404640000,
xp 13 7 [2,7] 966226060800,
xp 13 7 [1,8] 1416647232000,
xm 13 7 [11] 523592816947200,
xp 14 7 [2,3,3] 1945944000,
xp 14 7 [2,2,4] 2075673600,
xp 14 7 [1,3,4] 4410806400,
xp 14 7 [1,2,5] 4929724800,
xp 14 7 [1,1,6] 2983780800,
xm 14 7 [5,5] 617512896000,
xm 14 7 [4,6] 1289512224000,
xm 14 7 [3,7] 1477360684800,
xm 14 7 [2,8] 1889900812800,
xm 14 7 [1,9] 2739889152000,
xp 14 7 [12] 1271582555443200,
xm 15 7 [3,3,3] 778377600,
xm 15 7 [2,3,4] 4929724800,
xm 15 7 [1,4,4] 2724321600,
xm 15 7 [2,2,5] 2724321600,
xm 15 7 [1,3,5] 5708102400,
xm 15 7 [1,2,6] 6486480000,
xm 15 7 [1,1,7] 3891888000,
xp 15 7 [5,6] 2143132992000,
xp 15 7 [4,7] 2306592288000,
xp 15 7 [3,8] 2695781088000,
xp 15 7 [2,9] 3471564096000,
xp 15 7 [1,10] 4966049088000,
xm 15 7 [13] 2861060749747200,
xp 16 7 [3,3,4] 2854051200,
xp 16 7 [2,4,4] 2983780800,
xp 16 7 [2,3,5] 6227020800,
xp 16 7 [1,4,5] 6745939200,
xp 16 7 [2,2,6] 3502699200,
xp 16 7 [1,3,6] 7264857600,
xp 16 7 [1,2,7] 8302694400,
xp 16 7 [1,1,8] 4929724800,
xm 16 7 [6,6] 1743565824000,
xm 16 7 [5,7] 3596104512000,
xm 16 7 [4,8] 3956752800000,
xm 16 7 [3,9] 4688427744000,
xm 16 7 [2,10] 6050588544000,
xm 16 7 [1,11] 8533613088000,
xp 16 7 [14] 6040017138355200,
xm 17 7 [3,4,4] 3372969600,
xm 17 7 [3,3,5] 3502699200,
xm 17 7 [2,4,5] 7264857600,
xm 17 7 [1,5,5] 4021617600,
xm 17 7 [2,3,6] 7783776000,
xm 17 7 [1,4,6] 8302694400,
xm 17 7 [2,2,7] 4410806400,
xm 17 7 [1,3,7] 9081072000,
xm 17 7 [1,2,8] 10378368000,
xm 17 7 [1,1,9] 6097291200,
xp 17 7 [6,7] 5543086348800,
xp 17 7 [5,8] 5848210368000,
xp 17 7 [4,9] 6540966432000,
xp 17 7 [3,10] 7822694880000,
xp 17 7 [2,11] 10086216940800,
xp 17 7 [1,12] 14024807596800,
xm 17 7 [15] 12080034276710400,
xp 18 7 [4,4,4] 1297296000,
xp 18 7 [3,4,5] 8043235200,
xp 18 7 [2,5,5] 4281076800,
xp 18 7 [3,3,6] 4281076800,
xp 18 7 [2,4,6] 8821612800,
xp 18 7 [1,5,6] 9599990400,
xp 18 7 [2,3,7] 9599990400,
xp 18 7 [1,4,7] 10118908800,
xp 18 7 [2,2,8] 5448643200,
xp 18 7 [1,3,8] 11156745600,
xp 18 7 [1,2,9] 12713500800,
xp 18 7 [1,1,10] 7394587200,
xm 18 7 [7,7] 4206352550400,
xm 18 7 [6,8] 8608856256000,
xm 18 7 [5,9] 9241936704000,
xm 18 7 [4,10] 10463989536000,
xm 18 7 [3,11] 12588960384000,
xm 18 7 [2,12] 16183508140800,
xm 18 7 [1,13] 22194139968000,
xm 19 7 [4,4,5] 4540536000,
xm 19 7 [3,5,5] 4670265600,
xm 19 7 [3,4,6] 9599990400,
xm 19 7 [2,5,6] 10118908800,
xm 19 7 [1,6,6] 5578372800,
xm 19 7 [3,3,7] 5189184000,
xm 19 7 [2,4,7] 10637827200,
xm 19 7 [1,5,7] 11416204800,
xm 19 7 [2,3,8] 11675664000,
xm 19 7 [1,4,8] 12194582400,
xm 19 7 [2,2,9] 6616209600,
xm 19 7 [1,3,9] 13491878400,
xm 19 7 [1,2,10] 15308092800,
xm 19 7 [1,1,11] 8821612800,
xp 19 7 [7,8] 12553673932800,
xp 19 7 [6,9] 13076743680000,
xp 19 7 [5,10] 14228742528000,
xp 19 7 [4,11] 16257713472000,
xp 19 7 [3,12] 19626531724800,
xp 19 7 [2,13] 25121877580800,
xp 19 7 [1,14] 33999533568000,
xp 8 8 [2,2] 2957834880,
xp 8 8 [1,3] 8302694400,
xm 8 8 [6] 719220902400,
xp 9 8 [1,1,1] 302702400,
xm 9 8 [2,3] 54486432000,
xm 9 8 [1,4] 76281004800,
xp 9 8 [7] 9349871731200,
xm 10 8 [1,1,2] 2508105600,
xp 10 8 [3,3] 123762038400,
xp 10 8 [2,4] 281253772800,
xp 10 8 [1,5] 395934739200,
xm 10 8 [8] 65449102118400,
xp 11 8 [1,2,2] 5318913600,
xp 11 8 [1,1,3] 5881075200,
xm 11 8 [3,4] 893577484800,
xm 11 8 [2,5] 1067934067200,
xm 11 8 [1,6] 1514722809600,
xp 11 8 [9] 327245510592000,
xp 12 8 [1,1,1,1] 5405400,
xm 12 8 [2,2,2] 3113510400,
xm 12 8 [1,2,3] 21016195200,
xm 12 8 [1,1,4] 12194582400,
xp 12 8 [4,4] 1264863600000,
xp 12 8 [3,5] 2718094579200,
xp 12 8 [2,6] 3323672352000,
xp 12 8 [1,7] 4740319584000,
xm 12 8 [10] 1308982042368000,
xm 13 8 [1,1,1,2] 21621600,
xp 13 8 [2,2,3] 16345929600,
xp 13 8 [1,3,3] 18421603200,
xp 13 8 [1,2,4] 38486448000,
xp 13 8 [1,1,5] 23005382400,
xm 13 8 [4,5] 6483885408000,
xm 13 8 [3,6] 7246695456000,
xm 13 8 [2,7] 8972825621760,
xm 13 8 [1,8] 12826106092800,
xp 13 8 [11] 4450538944051200,
xp 14 8 [1,1,2,2] 32432400,
xp 14 8 [1,1,1,3] 21621600,
xm 14 8 [2,3,3] 26075649600,
xm 14 8 [2,2,4] 27502675200,
xm 14 8 [1,3,4] 61578316800,
xm 14 8 [1,2,5] 66162096000,
xm 14 8 [1,1,6] 40259419200,
xp 14 8 [5,5] 7273938672000,
xp 14 8 [4,6] 15241671244800,
xp 14 8 [3,7] 17417496096000,
xp 14 8 [2,8] 21740086368000,
xp 14 8 [1,9] 31046368953600,
xm 14 8 [12] 13351616832153600,
xm 15 8 [1,2,2,2] 21621600,
xm 15 8 [1,1,2,3] 64864800,
xm 15 8 [1,1,1,4] 21621600,
xp 15 8 [3,3,3] 12843230400,
xp 15 8 [2,3,4] 81729648000,
xp 15 8 [1,4,4] 47999952000,
xp 15 8 [2,2,5] 44367523200,
xp 15 8 [1,3,5] 98335036800,
xp 15 8 [1,2,6] 107935027200,
xp 15 8 [1,1,7] 66291825600,
xm 15 8 [5,6] 30817525939200,
xm 15 8 [4,7] 33258518092800,
xm 15 8 [3,8] 38515680403200,
xm 15 8 [2,9] 48341919225600,
xm 15 8 [1,10] 68788342022400,
xp 15 8 [13] 36240102830131200,
xp 16 8 [2,2,2,2] 5405400,
xp 16 8 [1,2,2,3] 64864800,
xp 16 8 [1,1,3,3] 32432400,
xp 16 8 [1,1,2,4] 64864800,
xp 16 8 [1,1,1,5] 21621600,
xm 16 8 [3,3,4] 56951294400,
xm 16 8 [2,4,4] 60497236800,
xm 16 8 [2,3,5] 124540416000,
xm 16 8 [1,4,5] 144864720000,
xm 16 8 [2,2,6] 68886417600,
xm 16 8 [1,3,6] 151005254400,
xm 16 8 [1,2,7] 168475507200,
xm 16 8 [1,1,8] 103826923200,
xp 16 8 [6,6] 29956640313600,
xp 16 8 [5,7] 61911116467200,
xp 16 8 [4,8] 68093510284800,
xp 16 8 [3,9] 79539293433600,
xp 16 8 [2,10] 100211445734400,
xp 16 8 [1,11] 141806387923200,
xm 16 8 [14] 90600257075328000,
xm 17 8 [2,2,2,3] 21621600,
xm 17 8 [1,2,3,3] 64864800,
xm 17 8 [1,2,2,4] 64864800,
xm 17 8 [1,1,3,4] 64864800,
xm 17 8 [1,1,2,5] 64864800,
xm 17 8 [1,1,1,6] 21621600,
xp 17 8 [3,4,4] 80216136000,
xp 17 8 [3,3,5] 82897214400,
xp 17 8 [2,4,5] 175913337600,
xp 17 8 [1,5,5] 104432328000,
xp 17 8 [2,3,6] 184475491200,
xp 17 8 [1,4,6] 212064652800,
xp 17 8 [2,2,7] 103394491200,
xp 17 8 [1,3,7] 224259235200,
xp 17 8 [1,2,8] 253232179200,
xp 17 8 [1,1,9] 155978222400,
xm 17 8 [6,7] 112133077056000,
xm 17 8 [5,8] 118540681459200,
xm 17 8 [4,9] 132007651776000,
xm 17 8 [3,10] 155123390822400,
xm 17 8 [2,11] 195902074368000,
xm 17 8 [1,12] 275301778752000,
xp 17 8 [15] 211400599842432000,
xp 18 8 [2,2,3,3] 32432400,
xp 18 8 [1,3,3,3] 21621600,
xp 18 8 [2,2,2,4] 21621600,
xp 18 8 [1,2,3,4] 129729600,
xp 18 8 [1,1,4,4] 32432400,
xp 18 8 [1,2,2,5] 64864800,
xp 18 8 [1,1,3,5] 64864800,
xp 18 8 [1,1,2,6] 64864800,
xp 18 8 [1,1,1,7] 21621600,
xm 18 8 [4,4,4] 36108072000,
xm 18 8 [3,4,5] 224432208000,
xm 18 8 [2,5,5] 122983660800,
xm 18 8 [3,3,6] 118313395200,
xm 18 8 [2,4,6] 250378128000,
xm 18 8 [1,5,6] 294226732800,
xm 18 8 [2,3,7] 266205139200,
xm 18 8 [1,4,7] 302269968000,
xm 18 8 [2,2,8] 150616065600,
xm 18 8 [1,3,8] 323545622400,
xm 18 8 [1,2,9] 368432064000,
xm 18 8 [1,1,10] 226248422400,
xp 18 8 [7,7] 98775183386880,
xp 18 8 [6,8] 202427992166400,
xp 18 8 [5,9] 217400863680000,
xp 18 8 [4,10] 244153701792000,
xp 18 8 [3,11] 288167841561600,
xp 18 8 [2,12] 364333335125760,
xp 18 8 [1,13] 508009697395200,
xm 19 8 [2,3,3,3] 21621600,
xm 19 8 [2,2,3,4] 64864800,
xm 19 8 [1,3,3,4] 64864800,
xm 19 8 [1,2,4,4] 64864800,
xm 19 8 [2,2,2,5] 21621600,
xm 19 8 [1,2,3,5] 129729600,
xm 19 8 [1,1,4,5] 64864800,
xm 19 8 [1,2,2,6] 64864800,
xm 19 8 [1,1,3,6] 64864800,
xm 19 8 [1,1,2,7] 64864800,
xm 19 8 [1,1,1,8] 21621600,
xp 19 8 [4,4,5] 146378232000,
xp 19 8 [3,5,5] 151783632000,
xp 19 8 [3,4,6] 309794284800,
xp 19 8 [2,5,6] 338594256000,
xp 19 8 [1,6,6] 200691691200,
xp 19 8 [3,3,7] 165534969600,
xp 19 8 [2,4,7] 349059110400,
xp 19 8 [1,5,7] 405621216000,
xp 19 8 [2,3,8] 375178003200,
xp 19 8 [1,4,8] 420929308800,
xp 19 8 [2,2,9] 213664651200,
xp 19 8 [1,3,9] 455091436800,
xp 19 8 [1,2,10] 521080560000,
xp 19 8 [1,1,11] 318529411200,
xm 19 8 [7,8] 338687661312000,
xm 19 8 [6,9] 353333614233600,
xm 19 8 [5,10] 383690859552000,
xm 19 8 [4,11] 433502874604800,
xm 19 8 [3,12] 513332243424000,
xm 19 8 [2,13] 649060540128000,
xm 19 8 [1,14] 897493243046400,
xm 9 9 [1,1,1] 172972800,
xp 9 9 [2,3] 31135104000,
xp 9 9 [1,4] 43589145600,
xm 9 9 [7] 5342783846400,
xp 10 9 [1,1,2] 3113510400,
xm 10 9 [3,3] 155675520000,
xm 10 9 [2,4] 348713164800,
xm 10 9 [1,5] 490377888000,
xp 10 9 [8] 80141757696000,
xm 11 9 [1,2,2] 10897286400,
xm 11 9 [1,1,3] 12194582400,
xp 11 9 [3,4] 1818290073600,
xp 11 9 [2,5] 2146765420800,
xp 11 9 [1,6] 3040342905600,
xm 11 9 [9] 641134061568000,
xm 12 9 [1,1,1,1] 21621600,
xp 12 9 [2,2,2] 9340531200,
xp 12 9 [1,2,3] 63308044800,
xp 12 9 [1,1,4] 37621584000,
xm 12 9 [4,4] 3705077376000,
xm 12 9 [3,5] 7900532640000,
xm 12 9 [2,6] 9578714745600,
xm 12 9 [1,7] 13665197145600,
xp 12 9 [10] 3633093015552000,
xp 13 9 [1,1,1,2] 129729600,
xm 13 9 [2,2,3] 66681014400,
xm 13 9 [1,3,3] 75762086400,
xm 13 9 [1,2,4] 159826867200,
xm 13 9 [1,1,5] 98594496000,
xp 13 9 [4,5] 25379780025600,
xp 13 9 [3,6] 28104101625600,
xp 13 9 [2,7] 34587987033600,
xp 13 9 [1,8] 49626242265600,
xm 13 9 [11] 16348918569984000,
xm 14 9 [1,1,2,2] 259459200,
xm 14 9 [1,1,1,3] 194594400,
xp 14 9 [2,3,3] 138032294400,
xp 14 9 [2,2,4] 146075529600,
xp 14 9 [1,3,4] 332107776000,
xp 14 9 [1,2,5] 362205043200,
xp 14 9 [1,1,6] 228843014400,
xm 14 9 [5,5] 36495012153600,
xm 14 9 [4,6] 76095750931200,
xm 14 9 [3,7] 86241124569600,
xm 14 9 [2,8] 107163914457600,
xm 14 9 [1,9] 154272883564800,
xp 14 9 [12] 62125890565939200,
xp 15 9 [1,2,2,2] 216216000,
xp 15 9 [1,1,2,3] 713512800,
xp 15 9 [1,1,1,4] 281080800,
xm 15 9 [3,3,3] 85362076800,
xm 15 9 [2,3,4] 543826483200,
xm 15 9 [1,4,4] 326918592000,
xm 15 9 [2,2,5] 297859161600,
xm 15 9 [1,3,5] 674593920000,
xm 15 9 [1,2,6] 753469516800,
xm 15 9 [1,1,7] 483113030400,
xp 15 9 [5,6] 191399938329600,
xp 15 9 [4,7] 205152313766400,
xp 15 9 [3,8] 235969839705600,
xp 15 9 [2,9] 295240180435200,
xp 15 9 [1,10] 425419163769600,
xm 15 9 [13] 207086301886464000,
xm 16 9 [2,2,2,2] 64864800,
xm 16 9 [1,2,2,3] 843242400,
xm 16 9 [1,1,3,3] 454053600,
xm 16 9 [1,1,2,4] 972972000,
xm 16 9 [1,1,1,5] 389188800,
xp 16 9 [3,3,4] 463134672000,
xp 16 9 [2,4,4] 492972480000,
xp 16 9 [2,3,5] 1018636819200,
xp 16 9 [1,4,5] 1219458240000,
xp 16 9 [2,2,6] 571329158400,
xp 16 9 [1,3,6] 1285360876800,
xp 16 9 [1,2,7] 1461793132800,
xp 16 9 [1,1,8] 944950406400,
xm 16 9 [6,6] 225344985465600,
xm 16 9 [5,7] 464126325062400,
xm 16 9 [4,8] 506919968755200,
xm 16 9 [3,9] 588887800300800,
xm 16 9 [2,10] 740643410707200,
xm 16 9 [1,11] 1065885377356800,
xp 16 9 [14] 621258905659392000,
xp 17 9 [2,2,2,3] 324324000,
xp 17 9 [1,2,3,3] 1037836800,
xp 17 9 [1,2,2,4] 1102701600,
xp 17 9 [1,1,3,4] 1167566400,
xp 17 9 [1,1,2,5] 1297296000,
xp 17 9 [1,1,1,6] 518918400,
xm 17 9 [3,4,4] 782269488000,
xm 17 9 [3,3,5] 809512704000,
xm 17 9 [2,4,5] 1725403680000,
xm 17 9 [1,5,5] 1061188128000,
xm 17 9 [2,3,6] 1822441420800,
xm 17 9 [1,4,6] 2166484320000,
xm 17 9 [2,2,7] 1039912473600,
xm 17 9 [1,3,7] 2320603084800,
xm 17 9 [1,2,8] 2676062188800]
def extA4_1 : PL := [
xm 17 9 [1,1,9] 1735782048000,
xp 17 9 [6,7] 1000730501971200,
xp 17 9 [5,8] 1052449023225600,
xp 17 9 [4,9] 1164582100281600,
xp 17 9 [3,10] 1362461253753600,
xp 17 9 [2,11] 1720376398540800,
xp 17 9 [1,12] 2468366137036800,
xm 17 9 [15] 1708461990563328000,
xm 18 9 [2,2,3,3] 583783200,
xm 18 9 [1,3,3,3] 410810400,
xm 18 9 [2,2,2,4] 410810400,
xm 18 9 [1,2,3,4] 2594592000,
xm 18 9 [1,1,4,4] 713512800,
xm 18 9 [1,2,2,5] 1427025600,
xm 18 9 [1,1,3,5] 1491890400,
xm 18 9 [1,1,2,6] 1686484800,
xm 18 9 [1,1,1,7] 670269600,
xp 18 9 [4,4,4] 415567152000,
xp 18 9 [3,4,5] 2584213632000,
xp 18 9 [2,5,5] 1427025600000,
xp 18 9 [3,3,6] 1367868902400,
xp 18 9 [2,4,6] 2915283571200,
xp 18 9 [1,5,6] 3559780224000,
xp 18 9 [2,3,7] 3130115788800,
xp 18 9 [1,4,7] 3688471987200,
xp 18 9 [2,2,8] 1808949542400,
xp 18 9 [1,3,8] 4001898700800,
xp 18 9 [1,2,9] 4664038579200,
xp 18 9 [1,1,10] 3025294272000,
xm 18 9 [7,7] 1031689692633600,
xm 18 9 [6,8] 2108984528851200,
xm 18 9 [5,9] 2252011412851200,
xm 18 9 [4,10] 2515201117228800,
xm 18 9 [3,11] 2958121322956800,
xm 18 9 [2,12] 3746181940300800,
xm 18 9 [1,13] 5351243254156800,
xp 19 9 [2,3,3,3] 454053600,
xp 19 9 [2,2,3,4] 1427025600,
xp 19 9 [1,3,3,4] 1491890400,
xp 19 9 [1,2,4,4] 1556755200,
xp 19 9 [2,2,2,5] 518918400,
xp 19 9 [1,2,3,5] 3243240000,
xp 19 9 [1,1,4,5] 1751349600,
xp 19 9 [1,2,2,6] 1816214400,
xp 19 9 [1,1,3,6] 1881079200,
xp 19 9 [1,1,2,7] 2140538400,
xp 19 9 [1,1,1,8] 843242400,
xm 19 9 [4,4,5] 1961511552000,
xm 19 9 [3,5,5] 2035457424000,
xm 19 9 [3,4,6] 4161725568000,
xm 19 9 [2,5,6] 4596579187200,
xm 19 9 [1,6,6] 2844191750400,
xm 19 9 [3,3,7] 2239651814400,
xm 19 9 [2,4,7] 4767822259200,
xm 19 9 [1,5,7] 5771929363200,
xm 19 9 [2,3,8] 5185032652800,
xm 19 9 [1,4,8] 6050588544000,
xm 19 9 [2,2,9] 3024775353600,
xm 19 9 [1,3,9] 6634371744000,
xm 19 9 [1,2,10] 7793116531200,
xm 19 9 [1,1,11] 5043108470400,
xp 19 9 [7,8] 4083082446643200,
xp 19 9 [6,9] 4242487952102400,
xp 19 9 [5,10] 4581175613414400,
xp 19 9 [4,11] 5151539583590400,
xp 19 9 [3,12] 6083649873100800,
xp 19 9 [2,13] 7719877426060800,
xp 19 9 [1,14] 10967399540697600,
xm 10 10 [1,1,2] 1254052800,
xp 10 10 [3,3] 65791440000,
xp 10 10 [2,4] 142702560000,
xp 10 10 [1,5] 203934931200,
xm 10 10 [8] 33392399040000,
xp 11 10 [1,2,2] 9496206720,
xp 11 10 [1,1,3] 10940529600,
xm 11 10 [3,4] 1634592960000,
xm 11 10 [2,5] 1896127833600,
xm 11 10 [1,6] 2722764844800,
xp 11 10 [9] 567670783680000,
xp 12 10 [1,1,1,1] 32432400,
xm 12 10 [2,2,2] 13258365120,
xm 12 10 [1,2,3] 91070179200,
xm 12 10 [1,1,4] 56043187200,
xp 12 10 [4,4] 5364318960000,
xp 12 10 [3,5] 11329545427200,
xp 12 10 [2,6] 13630948531200,
xp 12 10 [1,7] 19692953280000,
xm 12 10 [10] 5109037053120000,
xm 13 10 [1,1,1,2] 302702400,
xp 13 10 [2,2,3] 137279862720,
xp 13 10 [1,3,3] 157232275200,
xp 13 10 [1,2,4] 336951014400,
xp 13 10 [1,1,5] 215524108800,
xm 13 10 [4,5] 52089028992000,
xm 13 10 [3,6] 57100223980800,
xm 13 10 [2,7] 70158286598400,
xm 13 10 [1,8] 101958125068800,
xp 13 10 [11] 32357234669760000,
xp 14 10 [1,1,2,2] 843242400,
xp 14 10 [1,1,1,3] 670269600,
xm 14 10 [2,3,3] 381923942400,
xm 14 10 [2,2,4] 408284997120,
xm 14 10 [1,3,4] 936215280000,
xm 14 10 [1,2,5] 1043804361600,
xm 14 10 [1,1,6] 684410126400,
xp 14 10 [5,5] 99590819328000,
xp 14 10 [4,6] 206596463673600,
xp 14 10 [3,7] 232353497376000,
xp 14 10 [2,8] 289246672915200,
xp 14 10 [1,9] 422302539859200,
xm 14 10 [12] 161786173348800000,
xm 15 10 [1,2,2,2] 908107200,
xm 15 10 [1,1,2,3] 3178375200,
xm 15 10 [1,1,1,4] 1362160800,
xp 15 10 [3,3,3] 303048345600,
xp 15 10 [2,3,4] 1942571030400,
xp 15 10 [1,4,4] 1188582595200,
xp 15 10 [2,2,5] 1081062702720,
xp 15 10 [1,3,5] 2476797523200,
xp 15 10 [1,2,6] 2833294464000,
xp 15 10 [1,1,7] 1887954868800,
xm 15 10 [5,6] 662553456364800,
xm 15 10 [4,7] 705426494572800,
xm 15 10 [3,8] 807565203244800,
xm 15 10 [2,9] 1014238466841600,
xm 15 10 [1,10] 1485071293305600,
xp 15 10 [13] 679501928064960000,
xp 16 10 [2,2,2,2] 335134800,
xp 16 10 [1,2,2,3] 4605400800,
xp 16 10 [1,1,3,3] 2627024400,
xp 16 10 [1,1,2,4] 5772967200,
xp 16 10 [1,1,1,5] 2551348800,
xm 16 10 [3,3,4] 2050116868800,
xm 16 10 [2,4,4] 2190959971200,
xm 16 10 [2,3,5] 4560773817600,
xm 16 10 [1,4,5] 5564967408000,
xm 16 10 [2,2,6] 2607331446720,
xm 16 10 [1,3,6] 5954588640000,
xm 16 10 [1,2,7] 6936607117440,
xm 16 10 [1,1,8] 4668579115200,
xp 16 10 [6,6] 961325914348800,
xp 16 10 [5,7] 1973478329222400,
xp 16 10 [4,8] 2141959717497600,
xp 16 10 [3,9] 2482870425235200,
xp 16 10 [2,10] 3138440277772800,
xp 16 10 [1,11] 4600136891750400,
xm 16 10 [14] 2491507069571520000,
xm 17 10 [2,2,2,3] 2097295200,
xm 17 10 [1,2,3,3] 7070263200,
xm 17 10 [1,2,2,4] 7718911200,
xm 17 10 [1,1,3,4] 8627018400,
xm 17 10 [1,1,2,5] 9989179200,
xm 17 10 [1,1,1,6] 4454049600,
xp 17 10 [3,4,4] 4202633635200,
xp 17 10 [3,3,5] 4371757790400,
xp 17 10 [2,4,5] 9349612272000,
xp 17 10 [1,5,5] 5906329228800,
xp 17 10 [2,3,6] 9993849465600,
xp 17 10 [1,4,6] 12138971644800,
xp 17 10 [2,2,7] 5823120663360,
xp 17 10 [1,3,7] 13230948931200,
xp 17 10 [1,2,8] 15624373564800,
xp 17 10 [1,1,9] 10572832670400,
xm 17 10 [6,7] 5130638588275200,
xm 17 10 [5,8] 5370041073196800,
xm 17 10 [4,9] 5912595168480000,
xm 17 10 [3,10] 6915629445753600,
xm 17 10 [2,11] 8784649723449600,
xm 17 10 [1,12] 12867204430080000,
xp 17 10 [15] 8186380371449280000,
xp 18 10 [2,2,3,3] 4572968400,
xp 18 10 [1,3,3,3] 3372969600,
xp 18 10 [2,2,2,4] 3308104800,
xp 18 10 [1,2,3,4] 21924302400,
xp 18 10 [1,1,4,4] 6518912400,
xp 18 10 [1,2,2,5] 12583771200,
xp 18 10 [1,1,3,5] 13816202400,
xp 18 10 [1,1,2,6] 16475659200,
xp 18 10 [1,1,1,7] 7329722400,
xm 18 10 [4,4,4] 2656213560000,
xm 18 10 [3,4,5] 16576848288000,
xm 18 10 [2,5,5] 9221569156800,
xm 18 10 [3,3,6] 8854174929600,
xm 18 10 [2,4,6] 18942337814400,
xm 18 10 [1,5,6] 23783327568000,
xm 18 10 [2,3,7] 20634323149440,
xm 18 10 [1,4,7] 24911196710400,
xm 18 10 [2,2,8] 12191754294720,
xm 18 10 [1,3,8] 27524210313600,
xm 18 10 [1,2,9] 32845977964800,
xm 18 10 [1,1,10] 22270161513600,
xp 18 10 [7,7] 6251293727078400,
xp 18 10 [6,8] 12749354947929600,
xp 18 10 [5,9] 13545599427360000,
xp 18 10 [4,10] 15076068815808000,
xp 18 10 [3,11] 17752289793638400,
xp 18 10 [2,12] 22636039461235200,
xp 18 10 [1,13] 33083853272870400,
xm 19 10 [2,3,3,3] 4194590400,
xm 19 10 [2,2,3,4] 13556743200,
xm 19 10 [1,3,3,4] 14789174400,
xm 19 10 [1,2,4,4] 15891876000,
xm 19 10 [2,2,2,5] 5145940800,
xm 19 10 [1,2,3,5] 33599966400,
xm 19 10 [1,1,4,5] 19524304800,
xm 19 10 [1,2,2,6] 19848628800,
xm 19 10 [1,1,3,6] 21470248800,
xm 19 10 [1,1,2,7] 26010784800,
xm 19 10 [1,1,1,8] 11481069600,
xp 19 10 [4,4,5] 14721498792000,
xp 19 10 [3,5,5] 15314968468800,
xp 19 10 [3,4,6] 31446973958400,
xp 19 10 [2,5,6] 34987554201600,
xp 19 10 [1,6,6] 22388474908800,
xp 19 10 [3,3,7] 17121582878400,
xp 19 10 [2,4,7] 36623669322240,
xp 19 10 [1,5,7] 45654786777600,
xp 19 10 [2,3,8] 40461883862400,
xp 19 10 [1,4,8] 48492405561600,
xp 19 10 [2,2,9] 24156196384320,
xp 19 10 [1,3,9] 54147059366400,
xp 19 10 [1,2,10] 65141815939200,
xp 19 10 [1,1,11] 44139804508800,
xm 19 10 [7,8] 28778699696947200,
xm 19 10 [6,9] 29794650594508800,
xm 19 10 [5,10] 32026906783872000,
xm 19 10 [4,11] 35940535908076800,
xm 19 10 [3,12] 42539319190368000,
xm 19 10 [2,13] 54400521945369600,
xm 19 10 [1,14] 79239272457945600,
xm 11 11 [1,2,2] 3009726720,
xm 11 11 [1,1,3] 3589185600,
xp 11 11 [3,4] 544864320000,
xp 11 11 [2,5] 621145324800,
xp 11 11 [1,6] 907588281600,
xm 11 11 [9] 189223594560000,
xm 12 11 [1,1,1,1] 21621600,
xp 12 11 [2,2,2] 9029180160,
xp 12 11 [1,2,3] 63308044800,
xp 12 11 [1,1,4] 40259419200,
xm 12 11 [4,4] 3814050240000,
xm 12 11 [3,5] 8009505504000,
xm 12 11 [2,6] 9555363417600,
xm 12 11 [1,7] 14024807596800,
xp 12 11 [10] 3595248296640000,
xp 13 11 [1,1,1,2] 345945600,
xm 13 11 [2,2,3] 152328496320,
xm 13 11 [1,3,3] 176691715200,
xm 13 11 [1,2,4] 383307724800,
xm 13 11 [1,1,5] 253059206400,
xp 13 11 [4,5] 58899832992000,
xp 13 11 [3,6] 64127416953600,
xp 13 11 [2,7] 78617694355200,
xp 13 11 [1,8] 115982932665600,
xm 13 11 [11] 35952482966400000,
xm 14 11 [1,1,2,2] 1427025600,
xm 14 11 [1,1,1,3] 1167566400,
xp 14 11 [2,3,3] 605577772800,
xp 14 11 [2,2,4] 654226372800,
xp 14 11 [1,3,4] 1514463350400,
xp 14 11 [1,2,5] 1718138822400,
xp 14 11 [1,1,6] 1162377216000,
xm 14 11 [5,5] 159045895008000,
xm 14 11 [4,6] 328965725088000,
xm 14 11 [3,7] 367898615884800,
xm 14 11 [2,8] 458811562809600,
xm 14 11 [1,9] 680091860448000,
xp 14 11 [12] 251667380764800000,
xp 15 11 [1,2,2,2] 2075673600,
xp 15 11 [1,1,2,3] 7524316800,
xp 15 11 [1,1,1,4] 3372969600,
xm 15 11 [3,3,3] 639048009600,
xm 15 11 [2,3,4] 4130331004800,
xm 15 11 [1,4,4] 2572105536000,
xm 15 11 [2,2,5] 2333576044800,
xm 15 11 [1,3,5] 5396491900800,
xm 15 11 [1,2,6] 6294999110400,
xm 15 11 [1,1,7] 4329855129600,
xp 15 11 [5,6] 1394681416128000,
xp 15 11 [4,7] 1478886304896000,
xp 15 11 [3,8] 1686881253657600,
xp 15 11 [2,9] 2127763666828800,
xp 15 11 [1,10] 3165599428992000,
xm 15 11 [13] 1384170594206400000,
xm 16 11 [2,2,2,2] 972972000,
xm 16 11 [1,2,2,3] 13881067200,
xm 16 11 [1,1,3,3] 8237829600,
xm 16 11 [1,1,2,4] 18291873600,
xm 16 11 [1,1,1,5] 8562153600,
xp 16 11 [3,3,4] 5529335011200,
xp 16 11 [2,4,4] 5946372432000,
xp 16 11 [2,3,5] 12457155110400,
xp 16 11 [1,4,5] 15461433187200,
xp 16 11 [2,2,6] 7244515998720,
xp 16 11 [1,3,6] 16723702195200,
xp 16 11 [1,2,7] 19879556336640,
xp 16 11 [1,1,8] 13825024012800,
xm 16 11 [6,6] 2556928383609600,
xm 16 11 [5,7] 5239382609260800,
xm 16 11 [4,8] 5663693363328000,
xm 16 11 [3,9] 6554927931552000,
xm 16 11 [2,10] 8334520184390400,
xm 16 11 [1,11] 12428205690700800,
xp 16 11 [14] 6367184733349440000,
xp 17 11 [2,2,2,3] 7697289600,
xp 17 11 [1,2,3,3] 26983756800,
xp 17 11 [1,2,2,4] 29837808000,
xp 17 11 [1,1,3,4] 34767532800,
xp 17 11 [1,1,2,5] 40994553600,
xp 17 11 [1,1,1,6] 19545926400,
xm 17 11 [3,4,4] 14003445456000,
xm 17 11 [3,3,5] 14648288054400,
xm 17 11 [2,4,5] 31481741491200,
xm 17 11 [1,5,5] 20356130995200,
xm 17 11 [2,3,6] 33989414659200,
xm 17 11 [1,4,6] 42022357977600,
xm 17 11 [2,2,7] 20165791726080,
xm 17 11 [1,3,7] 46407304944000,
xm 17 11 [1,2,8] 55924873804800,
xm 17 11 [1,1,9] 39157582464000,
xp 17 11 [6,7] 16706796352646400,
xp 17 11 [5,8] 17437720940640000,
xp 17 11 [4,9] 19135300216032000,
xp 17 11 [3,10] 22387377396384000,
xp 17 11 [2,11] 28634650024780800,
xp 17 11 [1,12] 42734256595430400,
xm 17 11 [15] 25468738933397760000,
xm 18 11 [2,2,3,3] 20562141600,
xm 18 11 [1,3,3,3] 15762146400,
xm 18 11 [2,2,2,4] 15091876800,
xm 18 11 [1,2,3,4] 104043139200,
xm 18 11 [1,1,4,4] 32756724000,
xm 18 11 [1,2,2,5] 60972912000,
xm 18 11 [1,1,3,5] 69794524800,
xm 18 11 [1,1,2,6] 85362076800,
xm 18 11 [1,1,1,7] 40886445600,
xp 18 11 [4,4,4] 10661610960000,
xp 18 11 [3,4,5] 66847327747200,
xp 18 11 [2,5,5] 37519357075200,
xp 18 11 [3,3,6] 36024872083200,
xp 18 11 [2,4,6] 77397976656000,
xp 18 11 [1,5,6] 99510386976000,
xp 18 11 [2,3,7] 85334885475840,
xp 18 11 [1,4,7] 105001408512000,
xp 18 11 [2,2,8] 51369185387520,
xp 18 11 [1,3,8] 117693028252800,
xp 18 11 [1,2,9] 143313326956800,
xp 18 11 [1,1,10] 100696634438400,
xm 18 11 [7,7] 24377581503475200,
xm 18 11 [6,8] 49653829524499200,
xm 18 11 [5,9] 52594055946432000,
xm 18 11 [4,10] 58399966681056000,
xm 18 11 [3,11] 68885847827596800,
xm 18 11 [2,12] 88511228591385600,
xm 18 11 [1,13] 132017517452620800,
xp 19 11 [2,3,3,3] 22508085600,
xp 19 11 [2,2,3,4] 73945872000,
xp 19 11 [1,3,3,4] 83740456800,
xp 19 11 [1,2,4,4] 91589097600,
xp 19 11 [2,2,2,5] 28713484800,
xp 19 11 [1,2,3,5] 194853859200,
xp 19 11 [1,1,4,5] 119999880000,
xp 19 11 [1,2,2,6] 118313395200,
xp 19 11 [1,1,3,6] 133232299200,
xp 19 11 [1,1,2,7] 166637671200,
xp 19 11 [1,1,1,8] 79545866400,
xm 19 11 [4,4,5] 70094113689600,
xm 19 11 [3,5,5] 73198240315200,
xm 19 11 [3,4,6] 150891870729600,
xm 19 11 [2,5,6] 169223960505600,
xm 19 11 [1,6,6] 111406591296000,
xm 19 11 [3,3,7] 83052111542400,
xm 19 11 [2,4,7] 178389183772800,
xm 19 11 [1,5,7] 227890712649600,
xm 19 11 [2,3,8] 199705227321600,
xm 19 11 [1,4,8] 244330479993600,
xm 19 11 [2,2,9] 121529651443200,
xm 19 11 [1,3,9] 276923398752000,
xm 19 11 [1,2,10] 339946038432000,
xm 19 11 [1,1,11] 239071025793600,
xp 19 11 [7,8] 131939225120102400,
xp 19 11 [6,9] 136318047465600000,
xp 19 11 [5,10] 146113151184000000,
xp 19 11 [4,11] 163765229531904000,
xp 19 11 [3,12] 194389176075494400,
xp 19 11 [2,13] 250660711241740800,
xp 19 11 [1,14] 373186773191232000,
xp 12 12 [1,1,1,1] 5405400,
xm 12 12 [2,2,2] 2387024640,
xm 12 12 [1,2,3] 17124307200,
xm 12 12 [1,1,4] 11199988800,
xp 12 12 [4,4] 1063696233600,
xp 12 12 [3,5] 2233943712000,
xp 12 12 [2,6] 2637143308800,
xp 12 12 [1,7] 3932882553600,
xm 12 12 [10] 1006669523059200,
xm 13 12 [1,1,1,2] 194594400,
xp 13 12 [2,2,3] 87178291200,
xp 13 12 [1,3,3] 102764376000,
xp 13 12 [1,2,4] 224432208000]
def extA4_2 : PL := [
xp 13 12 [1,1,5] 152172820800,
xm 13 12 [4,5] 34784138188800,
xm 13 12 [3,6] 37759097376000,
xm 13 12 [2,7] 46081510675200,
xm 13 12 [1,8] 69010958016000,
xp 13 12 [11] 21140059984243200,
xp 14 12 [1,1,2,2] 1329728400,
xp 14 12 [1,1,1,3] 1102701600,
xm 14 12 [2,3,3] 555780139200,
xm 14 12 [2,2,4] 605188584000,
xm 14 12 [1,3,4] 1417425609600,
xm 14 12 [1,2,5] 1626030806400,
xm 14 12 [1,1,6] 1129036708800,
xp 14 12 [5,5] 148709818857600,
xp 14 12 [4,6] 307303476480000,
xp 14 12 [3,7] 342451895385600,
xp 14 12 [2,8] 426977475724800,
xp 14 12 [1,9] 642247141536000,
xm 14 12 [12] 232540659826675200,
xm 15 12 [1,2,2,2] 2789186400,
xm 15 12 [1,1,2,3] 10313503200,
xm 15 12 [1,1,1,4] 4735130400,
xp 15 12 [3,3,3] 829250136000,
xp 15 12 [2,3,4] 5400643248000,
xp 15 12 [1,4,4] 3422483064000,
xp 15 12 [2,2,5] 3086656372800,
xp 15 12 [1,3,5] 7207257657600,
xp 15 12 [1,2,6] 8524013097600,
xp 15 12 [1,1,7] 6017766955200,
xm 15 12 [5,6] 1829599900128000,
xm 15 12 [4,7] 1936673522784000,
xm 15 12 [3,8] 2202785256672000,
xm 15 12 [2,9] 2786039159904000,
xm 15 12 [1,10] 4207071252384000,
xp 15 12 [13] 1782811725337843200,
xp 16 12 [2,2,2,2] 1735133400,
xp 16 12 [1,2,2,3] 25362136800,
xp 16 12 [1,1,3,3] 15437822400,
xp 16 12 [1,1,2,4] 34443208800,
xp 16 12 [1,1,1,5] 16670253600,
xm 16 12 [3,3,4] 9526063060800,
xm 16 12 [2,4,4] 10313892388800,
xm 16 12 [2,3,5] 21699091814400,
xm 16 12 [1,4,5] 27376318569600,
xm 16 12 [2,2,6] 12789133156800,
xm 16 12 [1,3,6] 29800964793600,
xm 16 12 [1,2,7] 35969607273600,
xm 16 12 [1,1,8] 25690741876800,
xp 16 12 [6,6] 4402748894544000,
xp 16 12 [5,7] 9015527416896000,
xp 16 12 [4,8] 9725065301952000,
xp 16 12 [3,9] 11237655356928000,
xp 16 12 [2,10] 14355392347296000,
xp 16 12 [1,11] 21741791014944000,
xm 16 12 [14] 10696870352027059200,
xm 17 12 [2,2,2,3] 17708090400,
xm 17 12 [1,2,3,3] 63826963200,
xm 17 12 [1,2,2,4] 71026956000,
xm 17 12 [1,1,3,4] 85232347200,
xm 17 12 [1,1,2,5] 101383682400,
xm 17 12 [1,1,1,6] 50399949600,
xp 17 12 [3,4,4] 30577915368000,
xp 17 12 [3,3,5] 32126256676800,
xp 17 12 [2,4,5] 69443995420800,
xp 17 12 [1,5,5] 45836840649600,
xp 17 12 [2,3,6] 75493286668800,
xp 17 12 [1,4,6] 94848683529600,
xp 17 12 [2,2,7] 45438337264320,
xp 17 12 [1,3,7] 105630510585600,
xp 17 12 [1,2,8] 129348454435200,
xp 17 12 [1,1,9] 93109139323200,
xm 17 12 [6,7] 36155953984550400,
xm 17 12 [5,8] 37693254414816000,
xm 17 12 [4,9] 41279461077254400,
xm 17 12 [3,10] 48285409011840000,
xm 17 12 [2,11] 62129675037830400,
xm 17 12 [1,12] 94267410337900800,
xp 17 12 [15] 53484351760135296000,
xp 18 12 [2,2,3,3] 58897238400,
xp 18 12 [1,3,3,3] 46508061600,
xp 18 12 [2,2,2,4] 43567524000,
xp 18 12 [1,2,3,4] 309534825600,
xp 18 12 [1,1,4,4] 101448547200,
xp 18 12 [1,2,2,5] 183372789600,
xp 18 12 [1,1,3,5] 216713296800,
xp 18 12 [1,1,2,6] 268475407200,
xp 18 12 [1,1,1,7] 135005270400,
xm 18 12 [4,4,4] 28557160632000,
xm 18 12 [3,4,5] 179806003977600,
xm 18 12 [2,5,5] 101852006256000,
xm 18 12 [3,3,6] 97573542580800,
xm 18 12 [2,4,6] 210673346083200,
xm 18 12 [1,5,6] 276577799097600,
xm 18 12 [2,3,7] 234283873824000,
xm 18 12 [1,4,7] 293066258284800,
xm 18 12 [2,2,8] 143160375758400,
xm 18 12 [1,3,8] 331749203385600,
xm 18 12 [1,2,9] 410632324502400,
xm 18 12 [1,1,10] 296988286795200,
xp 18 12 [7,7] 64351351259395200,
xp 18 12 [6,8] 131010111584352000,
xp 18 12 [5,9] 138564722321625600,
xp 18 12 [4,10] 153618615159609600,
xp 18 12 [3,11] 181397529304992000,
xp 18 12 [2,12] 234686455388985600,
xp 18 12 [1,13] 356289106197024000,
xm 19 12 [2,3,3,3] 78032354400,
xm 19 12 [2,2,3,4] 258810552000,
xm 19 12 [1,3,3,4] 302205103200,
xm 19 12 [1,2,4,4] 333923990400,
xm 19 12 [2,2,2,5] 101772871200,
xm 19 12 [1,2,3,5] 712604692800,
xm 19 12 [1,1,4,5] 458269812000,
xm 19 12 [1,2,2,6] 439199560800,
xm 19 12 [1,1,3,6] 511199488800,
xm 19 12 [1,1,2,7] 650334484800,
xm 19 12 [1,1,1,8] 327696969600,
xp 19 12 [4,4,5] 225666585144000,
xp 19 12 [3,5,5] 236576974233600,
xp 19 12 [3,4,6] 489058019049600,
xp 19 12 [2,5,6] 553088657721600,
xp 19 12 [1,6,6] 373061594505600,
xp 19 12 [3,3,7] 271475552462400,
xp 19 12 [2,4,7] 585700603488000,
xp 19 12 [1,5,7] 764395603171200,
xp 19 12 [2,3,8] 662114451398400,
xp 19 12 [1,4,8] 824197575801600,
xp 19 12 [2,2,9] 409189601620800,
xp 19 12 [1,3,9] 944354169158400,
xp 19 12 [1,2,10] 1178640378115200,
xp 19 12 [1,1,11] 854344529438400,
xm 19 12 [7,8] 415283149343462400,
xm 19 12 [6,9] 428697098653824000,
xm 19 12 [5,10] 458803548633830400,
xm 19 12 [4,11] 513748737710208000,
xm 19 12 [3,12] 611150581237996800,
xm 19 12 [2,13] 794046538795910400,
xm 19 12 [1,14] 1204767704204064000,
xp 13 13 [1,1,1,2] 43243200,
xm 13 13 [2,2,3] 20237817600,
xm 13 13 [1,3,3] 24277968000,
xm 13 13 [1,2,4] 53102649600,
xm 13 13 [1,1,5] 36843206400,
xp 13 13 [4,5] 8390910528000,
xp 13 13 [3,6] 9110131430400,
xp 13 13 [2,7] 11041753282560,
xp 13 13 [1,8] 16770404851200,
xm 13 13 [11] 5124863026483200,
xm 14 13 [1,1,2,2] 648648000,
xm 14 13 [1,1,1,3] 540540000,
xp 14 13 [2,3,3] 275212080000,
xp 14 13 [2,2,4] 300972672000,
xp 14 13 [1,3,4] 714377664000,
xp 14 13 [1,2,5] 824301878400,
xp 14 13 [1,1,6] 585080496000,
xm 14 13 [5,5] 75518194752000,
xm 14 13 [4,6] 156070935820800,
xm 14 13 [3,7] 173640475008000,
xm 14 13 [2,8] 215937513792000,
xm 14 13 [1,9] 329249054534400,
xp 14 13 [12] 117871849609113600,
xp 15 13 [1,2,2,2] 2205403200,
xp 15 13 [1,1,2,3] 8237829600,
xp 15 13 [1,1,1,4] 3827023200,
xm 15 13 [3,3,3] 651613248000,
xm 15 13 [2,3,4] 4267584921600,
xm 15 13 [1,4,4] 2748970224000,
xm 15 13 [2,2,5] 2457338083200,
xm 15 13 [1,3,5] 5798653660800,
xm 15 13 [1,2,6] 6918998486400,
xm 15 13 [1,1,7] 4991735548800,
xp 15 13 [5,6] 1463374796083200,
xp 15 13 [4,7] 1548448354252800,
xp 15 13 [3,8] 1757775885465600,
xp 15 13 [2,9] 2224453213382400,
xp 15 13 [1,10] 3404763211449600,
xm 15 13 [13] 1414462195309363200,
xm 16 13 [2,2,2,2] 1945944000,
xm 16 13 [1,2,2,3] 28864836000,
xm 16 13 [1,1,3,3] 17837820000,
xm 16 13 [1,1,2,4] 39891852000,
xm 16 13 [1,1,1,5] 19675656000,
xp 16 13 [3,3,4] 10561472064000,
xp 16 13 [2,4,4] 11502258768000,
xp 16 13 [2,3,5] 24257359526400,
xp 16 13 [1,4,5] 31077590544000,
xp 16 13 [2,2,6] 14434234214400,
xp 16 13 [1,3,6] 33945047136000,
xp 16 13 [1,2,7] 41417991014400,
xp 16 13 [1,1,8] 30238672464000,
xm 16 13 [6,6] 4918751751513600,
xm 16 13 [5,7] 10071250296307200,
xm 16 13 [4,8] 10855052669260800,
xm 16 13 [3,9] 12524895237254400,
xm 16 13 [2,10] 16044899328057600,
xm 16 13 [1,11] 24639434992972800,
xp 16 13 [14] 11787184960911360000,
xp 17 13 [2,2,2,3] 26529703200,
xp 17 13 [1,2,3,3] 97426929600,
xp 17 13 [1,2,2,4] 108778269600,
xp 17 13 [1,1,3,4] 133102569600,
xp 17 13 [1,1,2,5] 159048489600,
xp 17 13 [1,1,1,6] 81124243200,
xm 17 13 [3,4,4] 44646009408000,
xm 17 13 [3,3,5] 47042695814400,
xm 17 13 [2,4,5] 102257540985600,
xm 17 13 [1,5,5] 68713877232000,
xm 17 13 [2,3,6] 111634137014400,
xm 17 13 [1,4,6] 142353500889600,
xm 17 13 [2,2,7] 67926678019200,
xm 17 13 [1,3,7] 159329483913600,
xm 17 13 [1,2,8] 197477510630400,
xm 17 13 [1,1,9] 145405346486400,
xp 17 13 [6,7] 52784820728640000,
xp 17 13 [5,8] 55012795841203200,
xp 17 13 [4,9] 60185346949728000,
xp 17 13 [3,10] 70356523286649600,
xp 17 13 [2,11] 90928244639232000,
xp 17 13 [1,12] 139975000349184000,
xm 17 13 [15] 76616702245923840000,
xm 18 13 [2,2,3,3] 112540428000,
xm 18 13 [1,3,3,3] 90810720000,
xm 18 13 [2,2,2,4] 83610727200,
xm 18 13 [1,2,3,4] 607134528000,
xm 18 13 [1,1,4,4] 204518714400,
xm 18 13 [1,2,2,5] 361815854400,
xm 18 13 [1,1,3,5] 437513076000,
xm 18 13 [1,1,2,6] 545772427200,
xm 18 13 [1,1,1,7] 283329446400,
xp 18 13 [4,4,4] 52498974528000,
xp 18 13 [3,4,5] 331604425152000,
xp 18 13 [2,5,5] 189407291673600,
xp 18 13 [3,3,6] 180801548928000,
xp 18 13 [2,4,6] 392371067088000,
xp 18 13 [1,5,6] 524586805142400,
xp 18 13 [2,3,7] 438818934153600,
xp 18 13 [1,4,7] 557101194249600,
xp 18 13 [2,2,8] 271308961123200,
xp 18 13 [1,3,8] 634669635600000,
xp 18 13 [1,2,9] 795740869123200,
xp 18 13 [1,1,10] 589264535059200,
xm 18 13 [7,7] 117638935368514560,
xm 18 13 [6,8] 239472271143705600,
xm 18 13 [5,9] 253151858415456000,
xm 18 13 [4,10] 280384472912544000,
xm 18 13 [3,11] 331204365011520000,
xm 18 13 [2,12] 430873730526919680,
xm 18 13 [1,13] 664234106965228800,
xp 19 13 [2,3,3,3] 183826843200,
xp 19 13 [2,2,3,4] 613102089600,
xp 19 13 [1,3,3,4] 733101969600,
xp 19 13 [1,2,4,4] 814831617600,
xp 19 13 [2,2,2,5] 242853811200,
xp 19 13 [1,2,3,5] 1741879339200,
xp 19 13 [1,1,4,5] 1155696141600,
xp 19 13 [1,2,2,6] 1082723241600,
xp 19 13 [1,1,3,6] 1292560869600,
xp 19 13 [1,1,2,7] 1660019961600,
xp 19 13 [1,1,1,8] 868150483200,
xm 19 13 [4,4,5] 507726194976000,
xm 19 13 [3,5,5] 534013736256000,
xm 19 13 [3,4,6] 1105889834649600,
xm 19 13 [2,5,6] 1260662696092800,
xm 19 13 [1,6,6] 867968861760000,
xm 19 13 [3,3,7] 617589177004800,
xm 19 13 [2,4,7] 1338611677603200,
xm 19 13 [1,5,7] 1779942522758400,
xm 19 13 [2,3,8] 1523564400758400,
xm 19 13 [1,4,8] 1925429339433600,
xm 19 13 [2,2,9] 953241684595200,
xm 19 13 [1,3,9] 2222717950252800,
xm 19 13 [1,2,10] 2811380280508800,
xm 19 13 [1,1,11] 2088880073280000,
xp 19 13 [7,8] 922565429001216000,
xp 19 13 [6,9] 952147584067680000,
xp 19 13 [5,10] 1018352039376672000,
xp 19 13 [4,11] 1139519475917222400,
xp 19 13 [3,12] 1357326073591488000,
xp 19 13 [2,13] 1774734400831392000,
xp 19 13 [1,14] 2736966654944121600,
xp 14 14 [1,1,2,2] 129729600,
xp 14 14 [1,1,1,3] 108108000,
xm 14 14 [2,3,3] 56988360000,
xm 14 14 [2,2,4] 62373991680,
xm 14 14 [1,3,4] 150140390400,
xm 14 14 [1,2,5] 173578204800,
xm 14 14 [1,1,6] 125578252800,
xp 14 14 [5,5] 16102226649600,
xp 14 14 [4,6] 33280312665600,
xp 14 14 [3,7] 37035206208000,
xp 14 14 [2,8] 45838656864000,
xp 14 14 [1,9] 70758156268800,
xm 14 14 [12] 25258253487667200,
xm 15 14 [1,2,2,2] 951350400,
xm 15 14 [1,1,2,3] 3567564000,
xm 15 14 [1,1,1,4] 1664863200,
xp 15 14 [3,3,3] 284941800000,
xp 15 14 [2,3,4] 1871998128000,
xp 15 14 [1,4,4] 1223321299200,
xp 15 14 [2,2,5] 1082100539520,
xp 15 14 [1,3,5] 2582397417600,
xp 15 14 [1,2,6] 3096645552000,
xp 15 14 [1,1,7] 2275630156800,
xm 15 14 [5,6] 653771800281600,
xm 15 14 [4,7] 691890508108800,
xm 15 14 [3,8] 784721377440000,
xm 15 14 [2,9] 991531635494400,
xm 15 14 [1,10] 1536151544928000,
xp 15 14 [13] 631456337191680000,
xp 16 14 [2,2,2,2] 1340539200,
xp 16 14 [1,2,2,3] 20043223200,
xp 16 14 [1,1,3,3] 12486474000,
xp 16 14 [1,1,2,4] 27956728800,
xp 16 14 [1,1,1,5] 13924310400,
xm 16 14 [3,3,4] 7304202734400,
xm 16 14 [2,4,4] 7988936155200,
xm 16 14 [2,3,5] 16867183132800,
xm 16 14 [1,4,5] 21911242953600,
xm 16 14 [2,2,6] 10098930441600,
xm 16 14 [1,3,6] 23974808457600,
xm 16 14 [1,2,7] 29463321888000,
xm 16 14 [1,1,8] 21909124036800,
xp 16 14 [6,6] 3445983494553600,
xp 16 14 [5,7] 7056276273446400,
xp 16 14 [4,8] 7604784957369600,
xp 16 14 [3,9] 8765059516012800,
xp 16 14 [2,10] 11238275983334400,
xp 16 14 [1,11] 17470727783308800,
xm 16 14 [14] 8208932383491840000,
xm 17 14 [2,2,2,3] 25924298400,
xm 17 14 [1,2,3,3] 96324228000,
xm 17 14 [1,2,2,4] 107740432800,
xm 17 14 [1,1,3,4] 133426893600,
xm 17 14 [1,1,2,5] 159826867200,
xm 17 14 [1,1,1,6] 82767484800,
xp 17 14 [3,4,4] 43265441419200,
xp 17 14 [3,3,5] 45663651633600,
xp 17 14 [2,4,5] 99726516489600,
xp 17 14 [1,5,5] 68040840067200,
xp 17 14 [2,3,6] 109127242224000,
xp 17 14 [1,4,6] 141045394089600,
xp 17 14 [2,2,7] 66921792537600,
xp 17 14 [1,3,7] 158318025465600,
xp 17 14 [1,2,8] 197942720976000,
xp 17 14 [1,1,9] 148503419064000,
xm 17 14 [6,7] 51451624915891200,
xm 17 14 [5,8] 53626189314297600,
xm 17 14 [4,9] 58648554540576000,
xm 17 14 [3,10] 68508689112864000,
xm 17 14 [2,11] 88776485666668800,
xm 17 14 [1,12] 138401806852108800,
xp 17 14 [15] 73880391451426560000,
xp 18 14 [2,2,3,3] 145589043600,
xp 18 14 [1,3,3,3] 119243124000,
xp 18 14 [2,2,2,4] 108432324000,
xp 18 14 [1,2,3,4] 799264065600,
xp 18 14 [1,1,4,4] 274151077200,
xp 18 14 [1,2,2,5] 477923846400,
xp 18 14 [1,1,3,5] 586961575200,
xp 18 14 [1,1,2,6] 735047913600,
xp 18 14 [1,1,1,7] 389448259200,
xm 18 14 [4,4,4] 66602758622400,
xm 18 14 [3,4,5] 421577870313600,
xm 18 14 [2,5,5] 242440233235200,
xm 18 14 [3,3,6] 230534428924800,
xm 18 14 [2,4,6] 502644340598400,
xm 18 14 [1,5,6] 682597457942400,
xm 18 14 [2,3,7] 564121381824000,
xm 18 14 [1,4,7] 725792657990400,
xm 18 14 [2,2,8] 351905939985600,
xm 18 14 [1,3,8] 830137894185600,
xm 18 14 [1,2,9] 1051044311116800,
xm 18 14 [1,1,10] 793595098296000,
xp 18 14 [7,7] 149304963257049600,
xp 18 14 [6,8] 303944911016947200,
xp 18 14 [5,9] 321293204155123200,
xp 18 14 [4,10] 355693264371244800,
xp 18 14 [3,11] 420106999741228800,
xp 18 14 [2,12] 548706795033196800,
xp 18 14 [1,13] 857179098884908800,
xm 19 14 [2,3,3,3] 300864564000,
xm 19 14 [2,2,3,4] 1006766560800,
xm 19 14 [1,3,3,4] 1225101477600,
xm 19 14 [1,2,4,4] 1366377012000,
xm 19 14 [2,2,2,5] 400518518400,
xm 19 14 [1,2,3,5] 2923975454400,
xm 19 14 [1,1,4,5] 1982852071200,
xm 19 14 [1,2,2,6] 1826592768000,
xm 19 14 [1,1,3,6] 2221165346400,
xm 19 14 [1,1,2,7] 2868321456000,
xm 19 14 [1,1,1,8] 1538333596800,
xp 19 14 [4,4,5] 808872978513600,
xp 19 14 [3,5,5] 852814109347200,
xp 19 14 [3,4,6] 1767921259104000,
xp 19 14 [2,5,6] 2029316284195200,
xp 19 14 [1,6,6] 1421449302873600,
xp 19 14 [3,3,7] 991273992508800,
xp 19 14 [2,4,7] 2158164189941760,
xp 19 14 [1,5,7] 2916301343155200,
xp 19 14 [2,3,8] 2467512775728000]
def extA4_3 : PL := [
xp 19 14 [1,4,8] 3160573444828800,
xp 19 14 [2,2,9] 1558872205450560,
xp 19 14 [1,3,9] 3666782235916800,
xp 19 14 [1,2,10] 4686833453702400,
xp 19 14 [1,1,11] 3553934478494400,
xm 19 14 [7,8] 1461300802740979200,
xm 19 14 [6,9] 1508198201032723200,
xm 19 14 [5,10] 1612815649539494400,
xm 19 14 [4,11] 1803964744271289600,
xm 19 14 [3,12] 2150030386356652800,
xm 19 14 [2,13] 2825141753622988800,
xm 19 14 [1,14] 4418440314960672000,
xp 15 15 [1,2,2,2] 172972800,
xp 15 15 [1,1,2,3] 648648000,
xp 15 15 [1,1,1,4] 302702400,
xm 15 15 [3,3,3] 53281800000,
xm 15 15 [2,3,4] 350269920000,
xm 15 15 [1,4,4] 231668236800,
xm 15 15 [2,2,5] 202689527040,
xm 15 15 [1,3,5] 489340051200,
xm 15 15 [1,2,6] 587934547200,
xm 15 15 [1,1,7] 439048209600,
xp 15 15 [5,6] 125144437017600,
xp 15 15 [4,7] 132456516192000,
xp 15 15 [3,8] 150265795680000,
xp 15 15 [2,9] 189223594560000,
xp 15 15 [1,10] 296335617177600,
xm 15 15 [13] 121433910998400000,
xm 16 15 [2,2,2,2] 518918400,
xm 16 15 [1,2,2,3] 7783776000,
xm 16 15 [1,1,3,3] 4864860000,
xm 16 15 [1,1,2,4] 10897286400,
xm 16 15 [1,1,1,5] 5448643200,
xp 16 15 [3,3,4] 2870267400000,
xp 16 15 [2,4,4] 3146894150400,
xp 16 15 [2,3,5] 6647344704000,
xp 16 15 [1,4,5] 8739623692800,
xp 16 15 [2,2,6] 3993388439040,
xp 16 15 [1,3,6] 9572487724800,
xp 16 15 [1,2,7] 11813488727040,
xp 16 15 [1,1,8] 8923191076800,
xm 16 15 [6,6] 1376588807193600,
xm 16 15 [5,7] 2818986326956800,
xm 16 15 [4,8] 3038708312640000,
xm 16 15 [3,9] 3500636499360000,
xm 16 15 [2,10] 4484255148172800,
xm 16 15 [1,11] 7046686661414400,
xp 16 15 [14] 3278715596956800000,
xp 17 15 [2,2,2,3] 15956740800,
xp 17 15 [1,2,3,3] 59675616000,
xp 17 15 [1,2,2,4] 66810744000,
xp 17 15 [1,1,3,4] 83286403200,
xp 17 15 [1,1,2,5] 99891792000,
xp 17 15 [1,1,1,6] 52151299200,
xm 17 15 [3,4,4] 26735930020800,
xm 17 15 [3,3,5] 28241096083200,
xm 17 15 [2,4,5] 61885689465600,
xm 17 15 [1,5,5] 42764584262400,
xm 17 15 [2,3,6] 67802915980800,
xm 17 15 [1,4,6] 88685230233600,
xm 17 15 [2,2,7] 41794440367680,
xm 17 15 [1,3,7] 99711986774400,
xm 17 15 [1,2,8] 125407009728000,
xm 17 15 [1,1,9] 95576466585600,
xp 17 15 [6,7] 32115730565318400,
xp 17 15 [5,8] 33477215733561600,
xp 17 15 [4,9] 36614765547360000,
xp 17 15 [3,10] 42744921925305600,
xp 17 15 [2,11] 55445265549273600,
xp 17 15 [1,12] 87397217683776000,
xm 17 15 [15] 45902018357395200000,
xm 18 15 [2,2,3,3] 126162036000,
xm 18 15 [1,3,3,3] 104324220000,
xm 18 15 [2,2,2,4] 94097203200,
xm 18 15 [1,2,3,4] 700280380800,
xm 18 15 [1,1,4,4] 242918676000,
xm 18 15 [1,2,2,5] 419545526400,
xm 18 15 [1,1,3,5] 520345425600,
xm 18 15 [1,1,2,6] 653058806400,
xm 18 15 [1,1,1,7] 350334784800,
xp 18 15 [4,4,4] 57370681368000,
xp 18 15 [3,4,5] 363591593164800,
xp 18 15 [2,5,5] 210154168224000,
xp 18 15 [3,3,6] 199161919756800,
xp 18 15 [2,4,6] 435906504633600,
xp 18 15 [1,5,6] 599819335315200,
xp 18 15 [2,3,7] 490238091383040,
xp 18 15 [1,4,7] 638269545513600,
xp 18 15 [2,2,8] 307800003551040,
xp 18 15 [1,3,8] 731812976294400,
xp 18 15 [1,2,9] 933206245171200,
xp 18 15 [1,1,10] 716106181190400,
xm 18 15 [7,7] 129229252132780800,
xm 18 15 [6,8] 263091365708371200,
xm 18 15 [5,9] 278143100883648000,
xm 18 15 [4,10] 307897178805216000,
xm 18 15 [3,11] 363531897310982400,
xm 18 15 [2,12] 475971653584627200,
xm 18 15 [1,13] 752134659410534400,
xp 19 15 [2,3,3,3] 342810468000,
xp 19 15 [2,2,3,4] 1149404256000,
xp 19 15 [1,3,3,4] 1415933719200,
xp 19 15 [1,2,4,4] 1582441660800,
xp 19 15 [2,2,2,5] 458464406400,
xp 19 15 [1,2,3,5] 3388537152000,
xp 19 15 [1,1,4,5] 2332019289600,
xp 19 15 [1,2,2,6] 2123154633600,
xp 19 15 [1,1,3,6] 2614829817600,
xp 19 15 [1,1,2,7] 3387693909600,
xp 19 15 [1,1,1,8] 1847284639200,
xm 19 15 [4,4,5] 909420928416000,
xm 19 15 [3,5,5] 960373180166400,
xm 19 15 [3,4,6] 1992056645779200,
xm 19 15 [2,5,6] 2299330543910400,
xm 19 15 [1,6,6] 1633826517523200,
xm 19 15 [3,3,7] 1119788026156800,
xm 19 15 [2,4,7] 2447588436733440,
xm 19 15 [1,5,7] 3353046246950400,
xm 19 15 [2,3,8] 2806596890697600,
xm 19 15 [1,4,8] 3638121853766400,
xm 19 15 [2,2,9] 1786285573712640,
xm 19 15 [1,3,9] 4234490122262400,
xm 19 15 [1,2,10] 5456243797804800,
xm 19 15 [1,1,11] 4207701997699200,
xp 19 15 [7,8] 1641856175742182400,
xp 19 15 [6,9] 1694707884014745600,
xp 19 15 [5,10] 1812414147800256000,
xp 19 15 [4,11] 2026911194448940800,
xp 19 15 [3,12] 2416039539417504000,
xp 19 15 [2,13] 3185926009659993600,
xp 19 15 [1,14] 5043231279704217600,
xp 16 16 [2,2,2,2] 86486400,
xp 16 16 [1,2,2,3] 1297296000,
xp 16 16 [1,1,3,3] 810810000,
xp 16 16 [1,1,2,4] 1816214400,
xp 16 16 [1,1,1,5] 908107200,
xm 16 16 [3,3,4] 489729240000,
xm 16 16 [2,4,4] 537195859200,
xm 16 16 [2,3,5] 1135134000000,
xm 16 16 [1,4,5] 1507457952000,
xm 16 16 [2,2,6] 682689047040,
xm 16 16 [1,3,6] 1652495644800,
xm 16 16 [1,2,7] 2043120119040,
xm 16 16 [1,1,8] 1564495732800,
xp 16 16 [6,6] 239342489971200,
xp 16 16 [5,7] 490149044985600,
xp 16 16 [4,8] 528427579680000,
xp 16 16 [3,9] 608911823520000,
xp 16 16 [2,10] 778048605734400,
xp 16 16 [1,11] 1234284776524800,
xm 16 16 [14] 572474151849600000,
xm 17 16 [2,2,2,3] 5621616000,
xm 17 16 [1,2,3,3] 21081060000,
xm 17 16 [1,2,2,4] 23610787200,
xm 17 16 [1,1,3,4] 29513484000,
xm 17 16 [1,1,2,5] 35416180800,
xm 17 16 [1,1,1,6] 18551332800,
xp 17 16 [3,4,4] 9542188656000,
xp 17 16 [3,3,5] 10083233160000,
xp 17 16 [2,4,5] 22137837321600,
xp 17 16 [1,5,5] 15460277414400,
xp 17 16 [2,3,6] 24270851404800,
xp 17 16 [1,4,6] 32072530089600,
xp 17 16 [2,2,7] 15004317968640,
xp 17 16 [1,3,7] 36099769305600,
xp 17 16 [1,2,8] 45565446326400,
xp 17 16 [1,1,9] 35197499937600,
xm 17 16 [6,7] 11614544234092800,
xm 17 16 [5,8] 12108083891904000,
xm 17 16 [4,9] 13245651619200000,
xm 17 16 [3,10] 15459567675552000,
xm 17 16 [2,11] 20041875049996800,
xm 17 16 [1,12] 31896640622246400,
xp 17 16 [15] 16601750403638400000,
xp 18 16 [2,2,3,3] 70216146000,
xp 18 16 [1,3,3,3] 58378320000,
xp 18 16 [2,2,2,4] 52410758400,
xp 18 16 [1,2,3,4] 392172580800,
xp 18 16 [1,1,4,4] 136897160400,
xp 18 16 [1,2,2,5] 235199764800,
xp 18 16 [1,1,3,5] 293318625600,
xp 18 16 [1,1,2,6] 368561793600,
xp 18 16 [1,1,1,7] 199070071200,
xm 18 16 [4,4,4] 32054670648000,
xm 18 16 [3,4,5] 203279796720000,
xm 18 16 [2,5,5] 117891137145600,
xm 18 16 [3,3,6] 111452385844800,
xm 18 16 [2,4,6] 244605160800000,
xm 18 16 [1,5,6] 340300459699200,
xm 18 16 [2,3,7] 275422998090240,
xm 18 16 [1,4,7] 362327507942400,
xm 18 16 [2,2,8] 173677240376640,
xm 18 16 [1,3,8] 416069292038400,
xm 18 16 [1,2,9] 533195661398400,
xm 18 16 [1,1,10] 414772385227200,
xp 18 16 [7,7] 72798717774182400,
xp 18 16 [6,8] 148214166682982400,
xp 18 16 [5,9] 156716836147872000,
xp 18 16 [4,10] 173505421305216000,
xp 18 16 [3,11] 204794058730060800,
xp 18 16 [2,12] 268402968267033600,
xp 18 16 [1,13] 428364867375244800,
xm 19 16 [2,3,3,3] 267026760000,
xm 19 16 [2,2,3,4] 896366671200,
xm 19 16 [1,3,3,4] 1113079968000,
xm 19 16 [1,2,4,4] 1245469024800,
xm 19 16 [2,2,2,5] 358096939200,
xm 19 16 [1,2,3,5] 2668018953600,
xm 19 16 [1,1,4,5] 1853446795200,
xm 19 16 [1,2,2,6] 1674679406400,
xm 19 16 [1,1,3,6] 2079435758400,
xm 19 16 [1,1,2,7] 2699218922400,
xm 19 16 [1,1,1,8] 1487198512800,
xp 19 16 [4,4,5] 706052843496000,
xp 19 16 [3,5,5] 746332195190400,
xp 19 16 [3,4,6] 1548614148681600,
xp 19 16 [2,5,6] 1794877513228800,
xp 19 16 [1,6,6] 1290609217497600,
xp 19 16 [3,3,7] 871863474081600,
xp 19 16 [2,4,7] 1911746239603200,
xp 19 16 [1,5,7] 2649316788518400,
xp 19 16 [2,3,8] 2196147252499200,
xp 19 16 [1,4,8] 2876915955513600,
xp 19 16 [2,2,9] 1405356216264000,
xp 19 16 [1,3,9] 3355521228259200,
xp 19 16 [1,2,10] 4349524126147200,
xp 19 16 [1,1,11] 3401867517048000,
xm 19 16 [7,8] 1278905063320684800,
xm 19 16 [6,9] 1320194096885664000,
xm 19 16 [5,10] 1412118919122912000,
xm 19 16 [4,11] 1579327208563104000,
xm 19 16 [3,12] 1882338254827430400,
xm 19 16 [2,13] 2487614144772556800,
xm 19 16 [1,14] 3978984483714240000,
xp 17 17 [2,2,2,3] 864864000,
xp 17 17 [1,2,3,3] 3243240000,
xp 17 17 [1,2,2,4] 3632428800,
xp 17 17 [1,1,3,4] 4540536000,
xp 17 17 [1,1,2,5] 5448643200,
xp 17 17 [1,1,1,6] 2854051200,
xm 17 17 [3,4,4] 1497367872000,
xm 17 17 [3,3,5] 1582701120000,
xm 17 17 [2,4,5] 3476234361600,
xm 17 17 [1,5,5] 2448917452800,
xm 17 17 [2,3,6] 3813012403200,
xm 17 17 [1,4,6] 5081767891200,
xm 17 17 [2,2,7] 2359729532160,
xm 17 17 [1,3,7] 5725053734400,
xm 17 17 [1,2,8] 7238392761600,
xm 17 17 [1,1,9] 5657594342400,
xp 17 17 [6,7] 1851274602777600,
xp 17 17 [5,8] 1930080664512000,
xp 17 17 [4,9] 2111735315289600,
xp 17 17 [3,10] 2465313117696000,
xp 17 17 [2,11] 3189965761382400,
xp 17 17 [1,12] 5119499485900800,
xm 17 17 [15] 2656280064582144000,
xm 18 17 [2,2,3,3] 22702680000,
xm 18 17 [1,3,3,3] 18918900000,
xm 18 17 [2,2,2,4] 16951334400,
xm 18 17 [1,2,3,4] 127135008000,
xm 18 17 [1,1,4,4] 44497252800,
xm 18 17 [1,2,2,5] 76281004800,
xm 18 17 [1,1,3,5] 95351256000,
xm 18 17 [1,1,2,6] 119870150400,
xm 18 17 [1,1,1,7] 64929664800,
xp 18 17 [4,4,4] 10481575104000,
xp 18 17 [3,4,5] 66491609184000,
xp 18 17 [2,5,5] 38632861612800,
xp 18 17 [3,3,6] 36474774336000,
xp 18 17 [2,4,6] 80174968473600,
xp 18 17 [1,5,6] 112558071225600,
xp 18 17 [2,3,7] 90341617766400,
xp 18 17 [1,4,7] 119903447664000,
xp 18 17 [2,2,8] 57111121267200,
xp 18 17 [1,3,8] 137836402704000,
xp 18 17 [1,2,9] 177182093088000,
xp 18 17 [1,1,10] 139452055142400,
xm 18 17 [7,7] 24066569836108800,
xm 18 17 [6,8] 49000006351296000,
xm 18 17 [5,9] 51816989134310400,
xm 18 17 [4,10] 57380162814374400,
xm 18 17 [3,11] 67721404278528000,
xm 18 17 [2,12] 88727710969497600,
xm 18 17 [1,13] 142829409602880000,
xp 19 17 [2,3,3,3] 135675540000,
xp 19 17 [2,2,3,4] 455740084800,
xp 19 17 [1,3,3,4] 568539972000,
xp 19 17 [1,2,4,4] 636583147200,
xp 19 17 [2,2,2,5] 182226844800,
xp 19 17 [1,2,3,5] 1363977014400,
xp 19 17 [1,1,4,5] 952604452800,
xp 19 17 [1,2,2,6] 856993737600,
xp 19 17 [1,1,3,6] 1069101633600,
xp 19 17 [1,1,2,7] 1389209421600,
xp 19 17 [1,1,1,8] 769880311200,
xm 19 17 [4,4,5] 360290522592000,
xm 19 17 [3,5,5] 381042111340800,
xm 19 17 [3,4,6] 790833198355200,
xm 19 17 [2,5,6] 919124356550400,
xm 19 17 [1,6,6] 667404305568000,
xm 19 17 [3,3,7] 445647640838400,
xm 19 17 [2,4,7] 979387647638400,
xm 19 17 [1,5,7] 1370308943203200,
xm 19 17 [2,3,8] 1126345857436800,
xm 19 17 [1,4,8] 1489004175859200,
xm 19 17 [2,2,9] 723427773868800,
xm 19 17 [1,3,9] 1739146974364800,
xm 19 17 [1,2,10] 2263764049747200,
xm 19 17 [1,1,11] 1791813646022400,
xp 19 17 [7,8] 656849860252185600,
xp 19 17 [6,9] 678106125785088000,
xp 19 17 [5,10] 725437847880345600,
xp 19 17 [4,11] 811480224627072000,
xp 19 17 [3,12] 967050389662156800,
xp 19 17 [2,13] 1279234934039462400,
xp 19 17 [1,14] 2064569239212480000,
xp 18 18 [2,2,3,3] 3243240000,
xp 18 18 [1,3,3,3] 2702700000,
xp 18 18 [2,2,2,4] 2421619200,
xp 18 18 [1,2,3,4] 18162144000,
xp 18 18 [1,1,4,4] 6356750400,
xp 18 18 [1,2,2,5] 10897286400,
xp 18 18 [1,1,3,5] 13621608000,
xp 18 18 [1,1,2,6] 17124307200,
xp 18 18 [1,1,1,7] 9275666400,
xm 18 18 [4,4,4] 1522794873600,
xm 18 18 [3,4,5] 9662260608000,
xm 18 18 [2,5,5] 5617055808000,
xm 18 18 [3,3,6] 5302419408000,
xm 18 18 [2,4,6] 11659058611200,
xm 18 18 [1,5,6] 16490707833600,
xm 18 18 [2,3,7] 13144462531200,
xm 18 18 [1,4,7] 17574295939200,
xm 18 18 [2,2,8] 8317743033600,
xm 18 18 [1,3,8] 20220952752000,
xm 18 18 [1,2,9] 26032579372800,
xm 18 18 [1,1,10] 20699914435200,
xp 18 18 [7,7] 3543133892538240,
xp 18 18 [6,8] 7214093888601600,
xp 18 18 [5,9] 7629495332659200,
xp 18 18 [4,10] 8449922966284800,
xp 18 18 [3,11] 9975179819404800,
xp 18 18 [2,12] 13050097635294720,
xp 18 18 [1,13] 21164195916864000,
xm 19 18 [2,3,3,3] 40540500000,
xm 19 18 [2,2,3,4] 136216080000,
xm 19 18 [1,3,3,4] 170270100000,
xm 19 18 [1,2,4,4] 190702512000,
xm 19 18 [2,2,2,5] 54486432000,
xm 19 18 [1,2,3,5] 408648240000,
xm 19 18 [1,1,4,5] 286053768000,
xm 19 18 [1,2,2,6] 256864608000,
xm 19 18 [1,1,3,6] 321080760000,
xm 19 18 [1,1,2,7] 417404988000,
xm 19 18 [1,1,1,8] 231891660000,
xp 19 18 [4,4,5] 108751285843200,
xp 19 18 [3,5,5] 115045624512000,
xp 19 18 [3,4,6] 238814031456000,
xp 19 18 [2,5,6] 277978878777600,
xp 19 18 [1,6,6] 203480238931200,
xp 19 18 [3,3,7] 134653764960000,
xp 19 18 [2,4,7] 296301887481600,
xp 19 18 [1,5,7] 417858782140800,
xp 19 18 [2,3,8] 341007226560000,
xp 19 18 [1,4,8] 454307870016000,
xp 19 18 [2,2,9] 219499369689600,
xp 19 18 [1,3,9] 531171360720000,
xp 19 18 [1,2,10] 693237620275200,
xp 19 18 [1,1,11] 554372202384000,
xm 19 18 [7,8] 200077237327968000,
xm 19 18 [6,9] 206564044765478400,
xm 19 18 [5,10] 221009718017088000,
xm 19 18 [4,11] 247274641027814400,
xm 19 18 [3,12] 294679624022784000,
xm 19 18 [2,13] 389745028632960000,
xm 19 18 [1,14] 633885015411648000,
xp 19 19 [2,3,3,3] 5405400000,
xp 19 19 [2,2,3,4] 18162144000,
xp 19 19 [1,3,3,4] 22702680000,
xp 19 19 [1,2,4,4] 25427001600,
xp 19 19 [2,2,2,5] 7264857600,
xp 19 19 [1,2,3,5] 54486432000,
xp 19 19 [1,1,4,5] 38140502400,
xp 19 19 [1,2,2,6] 34248614400,
xp 19 19 [1,1,3,6] 42810768000,
xp 19 19 [1,1,2,7] 55653998400,
xp 19 19 [1,1,1,8] 30918888000,
xm 19 19 [4,4,5] 14713758259200,
xm 19 19 [3,5,5] 15568259616000,
xm 19 19 [3,4,6] 32321351462400,
xm 19 19 [2,5,6] 37639227225600,
xm 19 19 [1,6,6] 27733474137600,
xm 19 19 [3,3,7] 18232105320000,
xm 19 19 [2,4,7] 40130243112960,
xm 19 19 [1,5,7] 56961153849600,
xm 19 19 [2,3,8] 46209683520000,
xm 19 19 [1,4,8] 61959548851200,
xm 19 19 [2,2,9] 29771178877440,
xm 19 19 [1,3,9] 72504835603200]
def extA4_4 : PL := [
xm 19 19 [1,2,10] 94755883622400,
xm 19 19 [1,1,11] 76458388406400,
xp 19 19 [7,8] 27377314892928000,
xp 19 19 [6,9] 28266220555372800,
xp 19 19 [5,10] 30245843397369600,
xp 19 19 [4,11] 33845449570732800,
xp 19 19 [3,12] 40343043765024000,
xp 19 19 [2,13] 53295994271520000,
xp 19 19 [1,14] 87258938903136000]
/-- row 4 -/
def extA4 : PL := extA4_0 ++ extA4_1 ++ extA4_2 ++ extA4_3 ++ extA4_4
def extA5_0 : PL := [
xp 9 9 [1,1,1] 43243200,
xm 9 9 [2,3] 7783776000,
xm 9 9 [1,4] 10897286400,
xp 9 9 [7] 1335695961600,
xm 10 9 [1,1,2] 908107200,
xp 10 9 [3,3] 38918880000,
xp 10 9 [2,4] 87178291200,
xp 10 9 [1,5] 130767436800,
xm 10 9 [8] 20035439424000,
xp 11 9 [1,2,2] 3243240000,
xp 11 9 [1,1,3] 4021617600,
xm 11 9 [3,4] 454572518400,
xm 11 9 [2,5] 544864320000,
xm 11 9 [1,6] 849988339200,
xp 11 9 [9] 160283515392000,
xp 12 9 [1,1,1,1] 21621600,
xm 12 9 [2,2,2] 2724321600,
xm 12 9 [1,2,3] 19978358400,
xm 12 9 [1,1,4] 13621608000,
xp 12 9 [4,4] 926269344000,
xp 12 9 [3,5] 1983306124800,
xp 12 9 [2,6] 2484581299200,
xp 12 9 [1,7] 3955714963200,
xm 12 9 [10] 908273253888000,
xm 13 9 [1,1,1,2] 129729600,
xp 13 9 [2,2,3] 20108088000,
xp 13 9 [1,3,3] 24129705600,
xp 13 9 [1,2,4] 53708054400,
xp 13 9 [1,1,5] 38270232000,
xm 13 9 [4,5] 6353117971200,
xm 13 9 [3,6] 7115928019200,
xm 13 9 [2,7] 9186412435200,
xm 13 9 [1,8] 14744028499200,
xp 13 9 [11] 4087229642496000,
xp 14 9 [1,1,2,2] 259459200,
xp 14 9 [1,1,1,3] 194594400,
xm 14 9 [2,3,3] 41772931200,
xm 14 9 [2,2,4] 46313467200,
xm 14 9 [1,3,4] 108972864000,
xm 14 9 [1,2,5] 128951222400,
xm 14 9 [1,1,6] 93535041600,
xp 14 9 [5,5] 9131926003200,
xp 14 9 [4,6] 19113840345600,
xp 14 9 [3,7] 22099696819200,
xp 14 9 [2,8] 29128446547200,
xp 14 9 [1,9] 46749358656000,
xm 14 9 [12] 15531472641484800,
xm 15 9 [1,2,2,2] 216216000,
xm 15 9 [1,1,2,3] 713512800,
xm 15 9 [1,1,1,4] 281080800,
xp 15 9 [3,3,3] 25556731200,
xp 15 9 [2,3,4] 169167398400,
xp 15 9 [1,4,4] 107675568000,
xp 15 9 [2,2,5] 99502603200,
xp 15 9 [1,3,5] 229621392000,
xp 15 9 [1,2,6] 282032150400,
xp 15 9 [1,1,7] 205232227200,
xm 15 9 [5,6] 47948060160000,
xm 15 9 [4,7] 51827494118400,
xm 15 9 [3,8] 61329927859200,
xm 15 9 [2,9] 81991182873600,
xm 15 9 [1,10] 130898204236800,
xp 15 9 [13] 51771575471616000,
xp 16 9 [2,2,2,2] 64864800,
xp 16 9 [1,2,2,3] 843242400,
xp 16 9 [1,1,3,3] 454053600,
xp 16 9 [1,1,2,4] 972972000,
xp 16 9 [1,1,1,5] 389188800,
xm 16 9 [3,3,4] 140756616000,
xm 16 9 [2,4,4] 154378224000,
xm 16 9 [2,3,5] 328734806400,
xm 16 9 [1,4,5] 408648240000,
xm 16 9 [2,2,6] 200432232000,
xm 16 9 [1,3,6] 454313059200,
xm 16 9 [1,2,7] 570810240000,
xm 16 9 [1,1,8] 413318505600,
xp 16 9 [6,6] 56426148979200,
xp 16 9 [5,7] 116579169907200,
xp 16 9 [4,8] 129067460121600,
xp 16 9 [3,9] 155403087840000,
xp 16 9 [2,10] 209704265971200,
xp 16 9 [1,11] 331920446457600,
xm 16 9 [14] 155314726414848000,
xm 17 9 [2,2,2,3] 324324000,
xm 17 9 [1,2,3,3] 1037836800,
xm 17 9 [1,2,2,4] 1102701600,
xm 17 9 [1,1,3,4] 1167566400,
xm 17 9 [1,1,2,5] 1297296000,
xm 17 9 [1,1,1,6] 518918400,
xp 17 9 [3,4,4] 238053816000,
xp 17 9 [3,3,5] 252972720000,
xp 17 9 [2,4,5] 551350800000,
xp 17 9 [1,5,5] 356107752000,
xp 17 9 [2,3,6] 611545334400,
xp 17 9 [1,4,6] 743350608000,
xp 17 9 [2,2,7] 381145564800,
xp 17 9 [1,3,7] 850247798400,
xp 17 9 [1,2,8] 1082463782400,
xp 17 9 [1,1,9] 776431656000,
xm 17 9 [6,7] 250811943782400,
xm 17 9 [5,8] 265457896704000,
xm 17 9 [4,9] 299326662835200,
xm 17 9 [3,10] 365158726732800,
xm 17 9 [2,11] 495543201753600,
xm 17 9 [1,12] 776039353689600,
xp 17 9 [15] 427115497640832000,
xp 18 9 [2,2,3,3] 583783200,
xp 18 9 [1,3,3,3] 410810400,
xp 18 9 [2,2,2,4] 410810400,
xp 18 9 [1,2,3,4] 2594592000,
xp 18 9 [1,1,4,4] 713512800,
xp 18 9 [1,2,2,5] 1427025600,
xp 18 9 [1,1,3,5] 1491890400,
xp 18 9 [1,1,2,6] 1686484800,
xp 18 9 [1,1,1,7] 670269600,
xm 18 9 [4,4,4] 125621496000,
xm 18 9 [3,4,5] 799134336000,
xm 18 9 [2,5,5] 458594136000,
xm 18 9 [3,3,6] 441859017600,
xm 18 9 [2,4,6] 956626070400,
xm 18 9 [1,5,6] 1207782576000,
xm 18 9 [2,3,7] 1091025936000,
xm 18 9 [1,4,7] 1299112214400,
xm 18 9 [2,2,8] 688864176000,
xm 18 9 [1,3,8] 1515501187200,
xm 18 9 [1,2,9] 1942571030400,
xm 18 9 [1,1,10] 1377079704000,
xp 18 9 [7,7] 258461838835200,
xp 18 9 [6,8] 529673502758400,
xp 18 9 [5,9] 571192163942400,
xp 18 9 [4,10] 653343692601600,
xp 18 9 [3,11] 804979432857600,
xp 18 9 [2,12] 1095493304505600,
xp 18 9 [1,13] 1695443407257600,
xm 19 9 [2,3,3,3] 454053600,
xm 19 9 [2,2,3,4] 1427025600,
xm 19 9 [1,3,3,4] 1491890400,
xm 19 9 [1,2,4,4] 1556755200,
xm 19 9 [2,2,2,5] 518918400,
xm 19 9 [1,2,3,5] 3243240000,
xm 19 9 [1,1,4,5] 1751349600,
xm 19 9 [1,2,2,6] 1816214400,
xm 19 9 [1,1,3,6] 1881079200,
xm 19 9 [1,1,2,7] 2140538400,
xm 19 9 [1,1,1,8] 843242400,
xp 19 9 [4,4,5] 598053456000,
xp 19 9 [3,5,5] 632431800000,
xp 19 9 [3,4,6] 1318052736000,
xp 19 9 [2,5,6] 1498895798400,
xp 19 9 [1,6,6] 965317953600,
xp 19 9 [3,3,7] 748799251200,
xp 19 9 [2,4,7] 1610463254400,
xp 19 9 [1,5,7] 1990570982400,
xp 19 9 [2,3,8] 1872517046400,
xp 19 9 [1,4,8] 2188538352000,
xp 19 9 [2,2,9] 1190528539200,
xp 19 9 [1,3,9] 2588105520000,
xp 19 9 [1,2,10] 3325488566400,
xp 19 9 [1,1,11] 2327478753600,
xm 19 9 [7,8] 1023647495270400,
xm 19 9 [6,9] 1068893028403200,
xm 19 9 [5,10] 1169845489612800,
xm 19 9 [4,11] 1353333998016000,
xm 19 9 [3,12] 1679860287705600,
xm 19 9 [2,13] 2287601950233600,
xm 19 9 [1,14] 3496852027468800,
xp 10 10 [1,1,2] 959999040,
xm 10 10 [3,3] 39474864000,
xm 10 10 [2,4] 85621536000,
xm 10 10 [1,5] 135437702400,
xp 10 10 [8] 20035439424000,
xm 11 10 [1,2,2] 7238911680,
xm 11 10 [1,1,3] 8951342400,
xp 11 10 [3,4] 980755776000,
xp 11 10 [2,5] 1176906931200,
xp 11 10 [1,6] 1849425177600,
xm 11 10 [9] 340602470208000,
xm 12 10 [1,1,1,1] 75675600,
xp 12 10 [2,2,2] 10118908800,
xp 12 10 [1,2,3] 71714522880,
xp 12 10 [1,1,4] 47999952000,
xm 12 10 [4,4] 3218591376000,
xm 12 10 [3,5] 6876187718400,
xm 12 10 [2,6] 8682023750400,
xm 12 10 [1,7] 13613824224000,
xp 12 10 [10] 3065422231872000,
xp 13 10 [1,1,1,2] 670269600,
xm 13 10 [2,2,3] 106482055680,
xm 13 10 [1,3,3] 123632308800,
xm 13 10 [1,2,4] 275286211200,
xm 13 10 [1,1,5] 190702512000,
xp 13 10 [4,5] 31384184832000,
xp 13 10 [3,6] 35195121561600,
xp 13 10 [2,7] 45619154380800,
xp 13 10 [1,8] 71459733945600,
xm 13 10 [11] 19414340801856000,
xm 14 10 [1,1,2,2] 1859457600,
xm 14 10 [1,1,1,3] 1383782400,
xp 14 10 [2,3,3] 296484027840,
xp 14 10 [2,2,4] 324765080640,
xp 14 10 [1,3,4] 748799251200,
xp 14 10 [1,2,5] 880604524800,
xp 14 10 [1,1,6] 620237217600,
xm 14 10 [5,5] 59950642752000,
xm 14 10 [4,6] 125468242099200,
xm 14 10 [3,7] 145525476096000,
xm 14 10 [2,8] 191312760038400,
xm 14 10 [1,9] 299195895398400,
xp 14 10 [12] 97071704009280000,
xm 15 10 [1,1,1,1,1] 540540,
xp 15 10 [1,2,2,2] 2010808800,
xp 15 10 [1,1,2,3] 6767560800,
xp 15 10 [1,1,1,4] 2637835200,
xm 15 10 [3,3,3] 234680846400,
xm 15 10 [2,3,4] 1527176851200,
xm 15 10 [1,4,4] 949490942400,
xm 15 10 [2,2,5] 883380738240,
xm 15 10 [1,3,5] 2026635811200,
xm 15 10 [1,2,6] 2454068897280,
xm 15 10 [1,1,7] 1741931231040,
xp 15 10 [5,6] 400036270233600,
xp 15 10 [4,7] 432821534745600,
xp 15 10 [3,8] 513523724313600,
xp 15 10 [2,9] 680537092435200,
xp 15 10 [1,10] 1061210441491200,
xm 15 10 [13] 407701156838976000,
xp 16 10 [1,1,1,1,2] 2702700,
xm 16 10 [2,2,2,2] 745945200,
xm 16 10 [1,2,2,3] 9989179200,
xm 16 10 [1,1,3,3] 5589183600,
xm 16 10 [1,1,2,4] 11740528800,
xm 16 10 [1,1,1,5] 4691887200,
xp 16 10 [3,3,4] 1598528131200,
xp 16 10 [2,4,4] 1723976654400,
xp 16 10 [2,3,5] 3652926076800,
xp 16 10 [1,4,5] 4491238752000,
xp 16 10 [2,2,6] 2184750247680,
xp 16 10 [1,3,6] 4984211232000,
xp 16 10 [1,2,7] 6137714943360,
xp 16 10 [1,1,8] 4367087524800,
xm 16 10 [6,6] 579888198489600,
xm 16 10 [5,7] 1198334109772800,
xm 16 10 [4,8] 1329120227635200,
xm 16 10 [3,9] 1600985728742400,
xm 16 10 [2,10] 2131770754713600,
xm 16 10 [1,11] 3309854592844800,
xp 16 10 [14] 1494904241742912000,
xm 17 10 [1,1,1,2,2] 5405400,
xm 17 10 [1,1,1,1,3] 2702700,
xp 17 10 [2,2,2,3] 4605400800,
xp 17 10 [1,2,3,3] 15308092800,
xp 17 10 [1,2,2,4] 16172956800,
xp 17 10 [1,1,3,4] 17967549600,
xp 17 10 [1,1,2,5] 19416196800,
xp 17 10 [1,1,1,6] 7870262400,
xm 17 10 [3,4,4] 3278137262400,
xm 17 10 [3,3,5] 3453661411200,
xm 17 10 [2,4,5] 7425722304000,
xm 17 10 [1,5,5] 4761206049600,
xm 17 10 [2,3,6] 8169695614080,
xm 17 10 [1,4,6] 9947406268800,
xm 17 10 [2,2,7] 4988622038400,
xm 17 10 [1,3,7] 11305000586880,
xm 17 10 [1,2,8] 14066684311680,
xm 17 10 [1,1,9] 9996314328000,
xp 17 10 [6,7] 3101542066022400,
xp 17 10 [5,8] 3285139547289600,
xp 17 10 [4,9] 3711179856384000,
xp 17 10 [3,10] 4515892639315200,
xp 17 10 [2,11] 6029999418643200,
xp 17 10 [1,12] 9309800852352000,
xm 17 10 [15] 4911828222869568000,
xp 18 10 [1,1,2,2,2] 5405400,
xp 18 10 [1,1,1,2,3] 10810800,
xp 18 10 [1,1,1,1,4] 2702700,
xm 18 10 [2,2,3,3] 10021611600,
xm 18 10 [1,3,3,3] 7329722400,
xm 18 10 [2,2,2,4] 7070263200,
xm 18 10 [1,2,3,4] 46616169600,
xm 18 10 [1,1,4,4] 13589175600,
xm 18 10 [1,2,2,5] 25362136800,
xm 18 10 [1,1,3,5] 27913485600,
xm 18 10 [1,1,2,6] 30767536800,
xm 18 10 [1,1,1,7] 12562149600,
xp 18 10 [4,4,4] 2067889824000,
xp 18 10 [3,4,5] 13020959952000,
xp 18 10 [2,5,5] 7329203481600,
xp 18 10 [3,3,6] 7109700998400,
xp 18 10 [2,4,6] 15255163123200,
xp 18 10 [1,5,6] 19300910428800,
xp 18 10 [2,3,7] 17207541711360,
xp 18 10 [1,4,7] 20755698163200,
xp 18 10 [2,2,8] 10645714759680,
xp 18 10 [1,3,8] 23944711190400,
xp 18 10 [1,2,9] 29994002438400,
xp 18 10 [1,1,10] 21234140928000,
xm 18 10 [7,7] 3775877045740800,
xm 18 10 [6,8] 7739947114099200,
xm 18 10 [5,9] 8357019967296000,
xm 18 10 [4,10] 9569234106432000,
xm 18 10 [3,11] 11724739150924800,
xm 18 10 [2,12] 15679734893222400,
xm 18 10 [1,13] 24046534396684800,
xm 19 10 [1,2,2,2,2] 2702700,
xm 19 10 [1,1,2,2,3] 16216200,
xm 19 10 [1,1,1,3,3] 5405400,
xm 19 10 [1,1,1,2,4] 10810800,
xm 19 10 [1,1,1,1,5] 2702700,
xp 19 10 [2,3,3,3] 9210801600,
xp 19 10 [2,2,3,4] 29254024800,
xp 19 10 [1,3,3,4] 31805373600,
xp 19 10 [1,2,4,4] 33729696000,
xp 19 10 [2,2,2,5] 10637827200,
xp 19 10 [1,2,3,5] 69535065600,
xp 19 10 [1,1,4,5] 40151311200,
xp 19 10 [1,2,2,6] 38529691200,
xp 19 10 [1,1,3,6] 41989147200,
xp 19 10 [1,1,2,7] 46962115200,
xp 19 10 [1,1,1,8] 19221602400,
xm 19 10 [4,4,5] 11504420928000,
xm 19 10 [3,5,5] 12042279849600,
xm 19 10 [3,4,6] 24982029072000,
xm 19 10 [2,5,6] 28000577404800,
xm 19 10 [1,6,6] 18149430499200,
xm 19 10 [3,3,7] 13988794659840,
xm 19 10 [2,4,7] 29963230577280,
xm 19 10 [1,5,7] 37453973356800,
xm 19 10 [2,3,8] 34369107252480,
xm 19 10 [1,4,8] 41062531910400,
xm 19 10 [2,2,9] 21439165587840,
xm 19 10 [1,3,9] 47843238643200,
xm 19 10 [1,2,10] 60186231705600,
xm 19 10 [1,1,11] 42371244115200,
xp 19 10 [7,8] 17410488621926400,
xp 19 10 [6,9] 18190946046873600,
xp 19 10 [5,10] 19936803414528000,
xp 19 10 [4,11] 23056561073145600,
xp 19 10 [3,12] 28384652263968000,
xp 19 10 [2,13] 37980959900083200,
xp 19 10 [1,14] 57811592609971200,
xp 11 11 [1,2,2] 4021617600,
xp 11 11 [1,1,3] 4972968000,
xm 11 11 [3,4] 544864320000,
xm 11 11 [2,5] 653837184000,
xm 11 11 [1,6] 1027458432000,
xp 11 11 [9] 189223594560000,
xp 12 11 [1,1,1,1] 86486400,
xm 12 11 [2,2,2] 12064852800,
xm 12 11 [1,2,3] 85621536000,
xm 12 11 [1,1,4] 56605348800,
xp 12 11 [4,4] 3814050240000,
xp 12 11 [3,5] 8172964800000,
xp 12 11 [2,6] 10274584320000,
xp 12 11 [1,7] 16028351539200,
xm 12 11 [10] 3595248296640000,
xm 13 11 [1,1,1,2] 1254052800,
xp 13 11 [2,2,3] 205102497600,
xp 13 11 [1,3,3] 238053816000,
xp 13 11 [1,2,4] 525664339200,
xp 13 11 [1,1,5] 359913153600,
xm 13 11 [4,5] 59390210880000,
xm 13 11 [3,6] 66644690112000,
xm 13 11 [2,7] 85895524915200,
xm 13 11 [1,8] 133569596160000,
xp 13 11 [11] 35952482966400000,
xp 14 11 [1,1,2,2] 5059454400,
xp 14 11 [1,1,1,3] 3805401600,
xm 14 11 [2,3,3] 815350536000,
xm 14 11 [2,2,4] 889815326400,
xm 14 11 [1,3,4] 2051370921600,
xm 14 11 [1,2,5] 2386505721600,
xm 14 11 [1,1,6] 1668192926400,
xp 14 11 [5,5] 160190110080000,
xp 14 11 [4,6] 335558583360000,
xp 14 11 [3,7] 388482033139200,
xp 14 11 [2,8] 507564465408000,
xp 14 11 [1,9] 788060617344000,
xm 14 11 [12] 251667380764800000,
xp 15 11 [1,1,1,1,1] 2702700,
xm 15 11 [1,2,2,2] 7394587200,
xm 15 11 [1,1,2,3] 25167542400,
xm 15 11 [1,1,1,4] 10032422400,
xp 15 11 [3,3,3] 860107248000,
xp 15 11 [2,3,4] 5586416035200,
xp 15 11 [1,4,4] 3475412740800,
xp 15 11 [2,2,5] 3206915712000,
xp 15 11 [1,3,5] 7374089923200,
xp 15 11 [1,2,6] 8839515484800,
xp 15 11 [1,1,7] 6258674822400,
xm 15 11 [5,6] 1411354264320000,
xm 15 11 [4,7] 1527279597043200,
xm 15 11 [3,8] 1805758194240000,
xm 15 11 [2,9] 2377538811648000,
xm 15 11 [1,10] 3686520854016000,
xp 15 11 [13] 1384170594206400000,
xm 16 11 [1,1,1,1,2] 18918900,
xp 16 11 [2,2,2,2] 3502699200,
xp 16 11 [1,2,2,3] 47740492800,
xp 16 11 [1,1,3,3] 27113486400,
xp 16 11 [1,1,2,4] 57340483200]
def extA5_1 : PL := [
xp 16 11 [1,1,1,5] 23654030400,
xm 16 11 [3,3,4] 7461787132800,
xm 16 11 [2,4,4] 8036618990400,
xm 16 11 [2,3,5] 16965518169600,
xm 16 11 [1,4,5] 20959719580800,
xm 16 11 [2,2,6] 10052746704000,
xm 16 11 [1,3,6] 23069555308800,
xm 16 11 [1,2,7] 28169485344000,
xm 16 11 [1,1,8] 20098228550400,
xp 16 11 [6,6] 2584618388352000,
xp 16 11 [5,7] 5342839889587200,
xp 16 11 [4,8] 5919701755968000,
xp 16 11 [3,9] 7099224035904000,
xp 16 11 [2,10] 9389942610048000,
xp 16 11 [1,11] 14532372062208000,
xm 16 11 [14] 6367184733349440000,
xp 17 11 [1,1,1,2,2] 48648600,
xp 17 11 [1,1,1,1,3] 27027000,
xm 17 11 [2,2,2,3] 27070243200,
xm 17 11 [1,2,3,3] 91978286400,
xm 17 11 [1,2,2,4] 97556659200,
xm 17 11 [1,1,3,4] 110529619200,
xm 17 11 [1,1,2,5] 120907987200,
xm 17 11 [1,1,1,6] 50940489600,
xp 17 11 [3,4,4] 18897883804800,
xp 17 11 [3,3,5] 19864974729600,
xp 17 11 [2,4,5] 42669103276800,
xp 17 11 [1,5,5] 27547431912000,
xp 17 11 [2,3,6] 46650504700800,
xp 17 11 [1,4,6] 57312461606400,
xp 17 11 [2,2,7] 28227604204800,
xp 17 11 [1,3,7] 64594270540800,
xp 17 11 [1,2,8] 79844417452800,
xp 17 11 [1,1,9] 57188050920000,
xm 17 11 [6,7] 16939669806259200,
xm 17 11 [5,8] 17942132976768000,
xm 17 11 [4,9] 20225005504704000,
xm 17 11 [3,10] 24489985455936000,
xm 17 11 [2,11] 32484125786112000,
xm 17 11 [1,12] 50136683614617600,
xp 17 11 [15] 25468738933397760000,
xm 18 11 [1,1,2,2,2] 59459400,
xm 18 11 [1,1,1,2,3] 129729600,
xm 18 11 [1,1,1,1,4] 37837800,
xp 18 11 [2,2,3,3] 71870198400,
xp 18 11 [1,3,3,3] 53967513600,
xp 18 11 [2,2,2,4] 50940489600,
xp 18 11 [1,2,3,4] 344302358400,
xp 18 11 [1,1,4,4] 103135032000,
xp 18 11 [1,2,2,5] 189016027200,
xp 18 11 [1,1,3,5] 213016003200,
xp 18 11 [1,1,2,6] 238572734400,
xp 18 11 [1,1,1,7] 101794492800,
xm 18 11 [4,4,4] 14382255888000,
xm 18 11 [3,4,5] 90427758220800,
xm 18 11 [2,5,5] 50805873518400,
xm 18 11 [3,3,6] 49153767062400,
xm 18 11 [2,4,6] 105422164848000,
xm 18 11 [1,5,6] 134962892064000,
xm 18 11 [2,3,7] 118033179264000,
xm 18 11 [1,4,7] 144231639552000,
xm 18 11 [2,2,8] 72459170784000,
xm 18 11 [1,3,8] 165146818636800,
xm 18 11 [1,2,9] 205894107619200,
xm 18 11 [1,1,10] 147612955089600,
xp 18 11 [7,7] 24693524971315200,
xp 18 11 [6,8] 50623904403072000,
xp 18 11 [5,9] 54621745161984000,
xp 18 11 [4,10] 62356965967296000,
xp 18 11 [3,11] 76007778694848000,
xp 18 11 [2,12] 100999985832345600,
xp 18 11 [1,13] 155314726414848000,
xp 19 11 [1,2,2,2,2] 35135100,
xp 19 11 [1,1,2,2,3] 227026800,
xp 19 11 [1,1,1,3,3] 81081000,
xp 19 11 [1,1,1,2,4] 172972800,
xp 19 11 [1,1,1,1,5] 51351300,
xm 19 11 [2,3,3,3] 78875596800,
xm 19 11 [2,2,3,4] 251934883200,
xm 19 11 [1,3,3,4] 281772691200,
xm 19 11 [1,2,4,4] 300064564800,
xm 19 11 [2,2,2,5] 92453961600,
xm 19 11 [1,2,3,5] 620626406400,
xm 19 11 [1,1,4,5] 369729360000,
xm 19 11 [1,2,2,6] 348713164800,
xm 19 11 [1,1,3,6] 390226636800,
xm 19 11 [1,1,2,7] 444713068800,
xm 19 11 [1,1,1,8] 191048457600,
xp 19 11 [4,4,5] 94685397206400,
xp 19 11 [3,5,5] 99003792888000,
xp 19 11 [3,4,6] 204949935590400,
xp 19 11 [2,5,6] 229589478518400,
xp 19 11 [1,6,6] 150903805852800,
xp 19 11 [3,3,7] 114065269718400,
xp 19 11 [2,4,7] 244433398809600,
xp 19 11 [1,5,7] 310453397654400,
xp 19 11 [2,3,8] 278260651468800,
xp 19 11 [1,4,8] 338062883558400,
xp 19 11 [2,2,9] 172575654451200,
xp 19 11 [1,3,9] 391352689728000,
xp 19 11 [1,2,10] 490953887424000,
xp 19 11 [1,1,11] 351529205227200,
xm 19 11 [7,8] 133939070212147200,
xm 19 11 [6,9] 139931618770944000,
xm 19 11 [5,10] 153140624372736000,
xm 19 11 [4,11] 176472150446592000,
xm 19 11 [3,12] 216096906843417600,
xm 19 11 [2,13] 287468484855552000,
xm 19 11 [1,14] 440058391508736000,
xm 12 12 [1,1,1,1] 32432400,
xp 12 12 [2,2,2] 4677678720,
xp 12 12 [1,2,3] 33952089600,
xp 12 12 [1,1,4] 22227004800,
xm 12 12 [4,4] 1519566048000,
xm 12 12 [3,5] 3284753472000,
xm 12 12 [2,6] 4075585113600,
xm 12 12 [1,7] 6381658483200,
xp 12 12 [10] 1438099318656000,
xp 13 12 [1,1,1,2] 1016215200,
xm 13 12 [2,2,3] 172021449600,
xm 13 12 [1,3,3] 202656168000,
xm 13 12 [1,2,4] 442377936000,
xm 13 12 [1,1,5] 302010508800,
xp 13 12 [4,5] 50345463168000,
xp 13 12 [3,6] 56510213760000,
xp 13 12 [2,7] 72127581926400,
xp 13 12 [1,8] 112421076768000,
xm 13 12 [11] 30200085691776000,
xm 14 12 [1,1,2,2] 6633506880,
xm 14 12 [1,1,1,3] 5081076000,
xp 14 12 [2,3,3] 1096715505600,
xp 14 12 [2,2,4] 1194883747200,
xp 14 12 [1,3,4] 2781625017600,
xp 14 12 [1,2,5] 3200948150400,
xp 14 12 [1,1,6] 2241727488000,
xm 14 12 [5,5] 215057947104000,
xm 14 12 [4,6] 450820738368000,
xm 14 12 [3,7] 519996712435200,
xm 14 12 [2,8] 674749076601600,
xm 14 12 [1,9] 1049634409824000,
xp 14 12 [12] 332200942609536000,
xm 15 12 [1,1,1,1,1] 5405400,
xp 15 12 [1,2,2,2] 13894040160,
xp 15 12 [1,1,2,3] 47870222400,
xp 15 12 [1,1,1,4] 19632412800,
xm 15 12 [3,3,3] 1636168248000,
xm 15 12 [2,3,4] 10652097456000,
xm 15 12 [1,4,4] 6691668984000,
xm 15 12 [2,2,5] 6091583097600,
xm 15 12 [1,3,5] 14108872377600,
xm 15 12 [1,2,6] 16790383209600,
xm 15 12 [1,1,7] 11955620476800,
xp 15 12 [5,6] 2661117338880000,
xp 15 12 [4,7] 2877568581888000,
xp 15 12 [3,8] 3384876182688000,
xp 15 12 [2,9] 4435623672480000,
xp 15 12 [1,10] 6894046295136000,
xm 15 12 [13] 2546873893339776000,
xp 16 12 [1,1,1,1,2] 54054000,
xm 16 12 [2,2,2,2] 8763234480,
xm 16 12 [1,2,2,3] 120920960160,
xm 16 12 [1,1,3,3] 69426957600,
xm 16 12 [1,1,2,4] 148605256800,
xm 16 12 [1,1,1,5] 63394531200,
xp 16 12 [3,3,4] 18795984292800,
xp 16 12 [2,4,4] 20316118680000,
xp 16 12 [2,3,5] 42764028278400,
xp 16 12 [1,4,5] 53392292553600,
xp 16 12 [2,2,6] 25235780169600,
xp 16 12 [1,3,6] 58310860608000,
xp 16 12 [1,2,7] 70943669596800,
xp 16 12 [1,1,8] 51073246224000,
xm 16 12 [6,6] 6397524413280000,
xm 16 12 [5,7] 13223249911872000,
xm 16 12 [4,8] 14617565490528000,
xm 16 12 [3,9] 17438623858656000,
xm 16 12 [2,10] 22990666739040000,
xm 16 12 [1,11] 35706492293472000,
xp 16 12 [14] 15281243360038656000,
xm 17 12 [1,1,1,2,2] 183783600,
xm 17 12 [1,1,1,1,3] 108108000,
xp 17 12 [2,2,2,3] 86866940160,
xp 17 12 [1,2,3,3] 299286187200,
xp 17 12 [1,2,2,4] 320077517760,
xp 17 12 [1,1,3,4] 367069903200,
xp 17 12 [1,1,2,5] 408972564000,
xp 17 12 [1,1,1,6] 178745767200,
xm 17 12 [3,4,4] 60319723464000,
xm 17 12 [3,3,5] 63374225428800,
xm 17 12 [2,4,5] 136607603932800,
xm 17 12 [1,5,5] 89171716233600,
xm 17 12 [2,3,6] 148691137795200,
xm 17 12 [1,4,6] 184773869280000,
xm 17 12 [2,2,7] 89685912476160,
xm 17 12 [1,3,7] 206843728291200,
xm 17 12 [1,2,8] 255486101270400,
xm 17 12 [1,1,9] 185216506675200,
xp 17 12 [6,7] 52720330587724800,
xp 17 12 [5,8] 55794503340576000,
xp 17 12 [4,9] 62685324557856000,
xp 17 12 [3,10] 75543624348192000,
xp 17 12 [2,11] 99981962893612800,
xp 17 12 [1,12] 155099011517049600,
xm 17 12 [15] 76406216800193280000,
xp 18 12 [1,1,2,2,2] 281080800,
xp 18 12 [1,1,1,2,3] 648648000,
xp 18 12 [1,1,1,1,4] 205405200,
xm 18 12 [2,2,3,3] 285962957280,
xm 18 12 [1,3,3,3] 218334916800,
xm 18 12 [2,2,2,4] 203991147360,
xm 18 12 [1,2,3,4] 1400949950400,
xm 18 12 [1,1,4,4] 428237409600,
xm 18 12 [1,2,2,5] 780012192960,
xm 18 12 [1,1,3,5] 891869378400,
xm 18 12 [1,1,2,6] 1020280060800,
xm 18 12 [1,1,1,7] 452691439200,
xp 18 12 [4,4,4] 56341719720000,
xp 18 12 [3,4,5] 354555111081600,
xp 18 12 [2,5,5] 200016837820800,
xp 18 12 [3,3,6] 192412811448000,
xp 18 12 [2,4,6] 413987391417600,
xp 18 12 [1,5,6] 537273841104000,
xp 18 12 [2,3,7] 461362565664000,
xp 18 12 [1,4,7] 570931753392000,
xp 18 12 [2,2,8] 282740992934400,
xp 18 12 [1,3,8] 650532971088000,
xp 18 12 [1,2,9] 812197328342400,
xp 18 12 [1,1,10] 591119668339200,
xm 18 12 [7,7] 93751363632326400,
xm 18 12 [6,8] 192146970663648000,
xm 18 12 [5,9] 206976963184992000,
xm 18 12 [4,10] 235388586232800000,
xm 18 12 [3,11] 285748776304992000,
xm 18 12 [2,12] 379170023251219200,
xm 18 12 [1,13] 587104046841312000,
xm 19 12 [1,2,2,2,2] 199999800,
xm 19 12 [1,1,2,2,3] 1362160800,
xm 19 12 [1,1,1,3,3] 513513000,
xm 19 12 [1,1,1,2,4] 1124323200,
xm 19 12 [1,1,1,1,5] 367567200,
xp 19 12 [2,3,3,3] 379459080000,
xp 19 12 [2,2,3,4] 1218563105760,
xp 19 12 [1,3,3,4] 1388863476000,
xp 19 12 [1,2,4,4] 1485663379200,
xp 19 12 [2,2,2,5] 452509817760,
xp 19 12 [1,2,3,5] 3092494204800,
xp 19 12 [1,1,4,5] 1882376496000,
xp 19 12 [1,2,2,6] 1768746339360,
xp 19 12 [1,1,3,6] 2013143932800,
xp 19 12 [1,1,2,7] 2346237653760,
xp 19 12 [1,1,1,8] 1050355706400,
xm 19 12 [4,4,5] 445165176456000,
xm 19 12 [3,5,5] 466182798681600,
xm 19 12 [3,4,6] 963911684736000,
xm 19 12 [2,5,6] 1084626374832000,
xm 19 12 [1,6,6] 723431925216000,
xm 19 12 [3,3,7] 535203041630400,
xm 19 12 [2,4,7] 1150211952489600,
xm 19 12 [1,5,7] 1484127899654400,
xm 19 12 [2,3,8] 1304159437152000,
xm 19 12 [1,4,8] 1606987798416000,
xm 19 12 [2,2,9] 808779805891200,
xm 19 12 [1,3,9] 1854841351334400,
xm 19 12 [1,2,10] 2334176396323200,
xm 19 12 [1,1,11] 1701342731088000,
xp 19 12 [7,8] 606445849077868800,
xp 19 12 [6,9] 633110724294048000,
xp 19 12 [5,10] 691232677847712000,
xp 19 12 [4,11] 793440132829344000,
xp 19 12 [3,12] 968306331498105600,
xp 19 12 [2,13] 1287170795163052800,
xp 19 12 [1,14] 1987812783212256000,
xm 13 13 [1,1,1,2] 302702400,
xp 13 13 [2,2,3] 53318865600,
xp 13 13 [1,3,3] 64123488000,
xp 13 13 [1,2,4] 138291753600,
xp 13 13 [1,1,5] 94572878400,
xm 13 13 [4,5] 16019011008000,
xm 13 13 [3,6] 17980522560000,
xm 13 13 [2,7] 22706831347200,
xm 13 13 [1,8] 35618558976000,
xp 13 13 [11] 9609118174656000,
xp 14 13 [1,1,2,2] 4229184960,
xp 14 13 [1,1,1,3] 3308104800,
xm 14 13 [2,3,3] 725559120000,
xm 14 13 [2,2,4] 788107320000,
xm 14 13 [1,3,4] 1861619760000,
xm 14 13 [1,2,5] 2122635715200,
xm 14 13 [1,1,6] 1494095803200,
xp 14 13 [5,5] 144171099072000,
xp 14 13 [4,6] 302072779008000,
xp 14 13 [3,7] 347280950016000,
xp 14 13 [2,8] 447458147136000,
xp 14 13 [1,9] 700127299872000,
xm 14 13 [12] 221009718017088000,
xp 15 13 [1,1,1,1,1] 5405400,
xm 15 13 [1,2,2,2] 14192418240,
xm 15 13 [1,1,2,3] 49599950400,
xm 15 13 [1,1,1,4] 20886465600,
xp 15 13 [3,3,3] 1717712568000,
xp 15 13 [2,3,4] 11201632041600,
xp 15 13 [1,4,4] 7123452336000,
xp 15 13 [2,2,5] 6388534152000,
xp 15 13 [1,3,5] 14953671532800,
xp 15 13 [1,2,6] 17696414736000,
xp 15 13 [1,1,7] 12697673788800,
xm 15 13 [5,6] 2810192216832000,
xm 15 13 [4,7] 3034084749696000,
xm 15 13 [3,8] 3552951257856000,
xm 15 13 [2,9] 4635978066720000,
xm 15 13 [1,10] 7247263671648000,
xp 15 13 [13] 2652116616205056000,
xm 16 13 [1,1,1,1,2] 81081000,
xp 16 13 [2,2,2,2] 12687554880,
xp 16 13 [1,2,2,3] 177041985120,
xp 16 13 [1,1,3,3] 102789086400,
xp 16 13 [1,1,2,4] 222378156000,
xp 16 13 [1,1,1,5] 97621524000,
xm 16 13 [3,3,4] 27777423960000,
xm 16 13 [2,4,4] 30136186080000,
xm 16 13 [2,3,5] 63291439411200,
xm 16 13 [1,4,5] 79987379472000,
xm 16 13 [2,2,6] 37288568116800,
xm 16 13 [1,3,6] 86889513110400,
xm 16 13 [1,2,7] 105477170198400,
xm 16 13 [1,1,8] 76691209795200,
xp 16 13 [6,6] 9439774344000000,
xp 16 13 [5,7] 19498078664064000,
xp 16 13 [4,8] 21500252661888000,
xp 16 13 [3,9] 25532941385952000,
xp 16 13 [2,10] 33587188034400000,
xp 16 13 [1,11] 52490625130944000,
xm 16 13 [14] 22100971801708800000,
xp 17 13 [1,1,1,2,2] 378378000,
xp 17 13 [1,1,1,1,3] 229729500,
xm 17 13 [2,2,2,3] 167662535040,
xm 17 13 [1,2,3,3] 583912929600,
xm 17 13 [1,2,2,4] 630001532160,
xm 17 13 [1,1,3,4] 730074945600,
xm 17 13 [1,1,2,5] 826226200800,
xm 17 13 [1,1,1,6] 372172600800,
xp 17 13 [3,4,4] 117351450216000,
xp 17 13 [3,3,5] 123240303014400,
xp 17 13 [2,4,5] 266807603462400,
xp 17 13 [1,5,5] 176194850832000,
xp 17 13 [2,3,6] 289548683424000,
xp 17 13 [1,4,6] 364179268252800,
xp 17 13 [2,2,7] 174579976771200,
xp 17 13 [1,3,7] 405772913145600,
xp 17 13 [1,2,8] 501442525584000,
xp 17 13 [1,1,9] 367928583422400,
xm 17 13 [6,7] 101651086240704000,
xm 17 13 [5,8] 107432081108352000,
xm 17 13 [4,9] 120325057620768000,
xm 17 13 [3,10] 144423238927968000,
xm 17 13 [2,11] 191002296348864000,
xm 17 13 [1,12] 298405608621120000,
xp 17 13 [15] 143656316711107200000,
xm 18 13 [1,1,2,2,2] 745945200,
xm 18 13 [1,1,1,2,3] 1783782000,
xm 18 13 [1,1,1,1,4] 591891300,
xp 18 13 [2,2,3,3] 701785244160,
xp 18 13 [1,3,3,3] 542139998400,
xp 18 13 [2,2,2,4] 504168144480,
xp 18 13 [1,2,3,4] 3503218118400,
xp 18 13 [1,1,4,4] 1090507017600,
xp 18 13 [1,2,2,5] 1976962347360,
xp 18 13 [1,1,3,5] 2285792308800,
xp 18 13 [1,1,2,6] 2662116256800,
xp 18 13 [1,1,1,7] 1219133916000,
xm 18 13 [4,4,4] 138048510600000,
xm 18 13 [3,4,5] 869485400784000,
xm 18 13 [2,5,5] 493023593462400,
xm 18 13 [3,3,6] 471484328515200,
xm 18 13 [2,4,6] 1018739824502400,
xm 18 13 [1,5,6] 1339545817209600,
xm 18 13 [2,3,7] 1132232727225600,
xm 18 13 [1,4,7] 1418398581600000,
xm 18 13 [2,2,8] 694484840649600,
xm 18 13 [1,3,8] 1610832205382400,
xm 18 13 [1,2,9] 2016344362032000,
xm 18 13 [1,1,10] 1488354879211200,
xp 18 13 [7,7] 226394917215667200,
xp 18 13 [6,8] 463728465135936000,
xp 18 13 [5,9] 498549630747168000,
xp 18 13 [4,10] 565080646594464000,
xp 18 13 [3,11] 683740536583104000,
xp 18 13 [2,12] 907584480003801600,
xp 18 13 [1,13] 1416887353705824000,
xp 19 13 [1,2,2,2,2] 654053400,
xp 19 13 [1,1,2,2,3] 4621617000,
xp 19 13 [1,1,1,3,3] 1810809000,
xp 19 13 [1,1,1,2,4] 4010806800,
xp 19 13 [1,1,1,1,5] 1389187800,
xm 19 13 [2,3,3,3] 1145966421600,
xm 19 13 [2,2,3,4] 3701522784960,
xm 19 13 [1,3,3,4] 4275217346400,
xm 19 13 [1,2,4,4] 4599217022400,
xm 19 13 [2,2,2,5] 1390610501280,
xm 19 13 [1,2,3,5] 9629179560000]
def extA5_2 : PL := [
xm 19 13 [1,1,4,5] 5969139976800,
xm 19 13 [1,2,2,6] 5595717647520,
xm 19 13 [1,1,3,6] 6449355712800,
xm 19 13 [1,1,2,7] 7659975042720,
xm 19 13 [1,1,1,8] 3544796455200,
xp 19 13 [4,4,5] 1333323207216000,
xp 19 13 [3,5,5] 1398610277064000,
xp 19 13 [3,4,6] 2889581283388800,
xp 19 13 [2,5,6] 3269691865440000,
xp 19 13 [1,6,6] 2210685010934400,
xp 19 13 [3,3,7] 1603134569836800,
xp 19 13 [2,4,7] 3458824130361600,
xp 19 13 [1,5,7] 4527690953385600,
xp 19 13 [2,3,8] 3913892734752000,
xp 19 13 [1,4,8] 4884707072044800,
xp 19 13 [2,2,9] 2432315189304000,
xp 19 13 [1,3,9] 5628357355420800,
xp 19 13 [1,2,10] 7112469687523200,
xp 19 13 [1,1,11] 5268430104537600,
xm 19 13 [7,8] 1779558689196288000,
xm 19 13 [6,9] 1855734885452448000,
xm 19 13 [5,10] 2021303133289440000,
xm 19 13 [4,11] 2312488192158144000,
xm 19 13 [3,12] 2815230795144768000,
xm 19 13 [2,13] 3746608249928544000,
xm 19 13 [1,14] 5841199907551008000,
xm 14 14 [1,1,2,2] 1055134080,
xm 14 14 [1,1,1,3] 843242400,
xp 14 14 [2,3,3] 189497880000,
xp 14 14 [2,2,4] 204609525120,
xp 14 14 [1,3,4] 491588697600,
xp 14 14 [1,2,5] 556539984000,
xp 14 14 [1,1,6] 393859065600,
xm 14 14 [5,5] 38487234240000,
xm 14 14 [4,6] 80451033062400,
xm 14 14 [3,7] 92351907648000,
xm 14 14 [2,8] 118087665696000,
xm 14 14 [1,9] 186127208467200,
xp 14 14 [12] 58935924804556800,
xm 15 14 [1,1,1,1,1] 2702700,
xp 15 14 [1,2,2,2] 7524316800,
xp 15 14 [1,1,2,3] 26702676000,
xp 15 14 [1,1,1,4] 11502691200,
xm 15 14 [3,3,3] 947489400000,
xm 15 14 [2,3,4] 6173831664000,
xm 15 14 [1,4,4] 3972969000000,
xm 15 14 [2,2,5] 3511105678080,
xm 15 14 [1,3,5] 8323970054400,
xm 15 14 [1,2,6] 9803665872000,
xm 15 14 [1,1,7] 7086609129600,
xp 15 14 [5,6] 1570778450841600,
xp 15 14 [4,7] 1692326783347200,
xp 15 14 [3,8] 1975716943200000,
xp 15 14 [2,9] 2565871942233600,
xp 15 14 [1,10] 4039751722406400,
xm 15 14 [13] 1473398120113920000,
xp 16 14 [1,1,1,1,2] 67567500,
xm 16 14 [2,2,2,2] 10689719040,
xm 16 14 [1,2,2,3] 150888497760,
xm 16 14 [1,1,3,3] 88653193200,
xm 16 14 [1,1,2,4] 193253860800,
xm 16 14 [1,1,1,5] 86853967200,
xp 16 14 [3,3,4] 24172090113600,
xp 16 14 [2,4,4] 26278892640000,
xp 16 14 [2,3,5] 55103944896000,
xp 16 14 [1,4,5] 70474740336000,
xp 16 14 [2,2,6] 32436551347200,
xp 16 14 [1,3,6] 76337047987200,
xp 16 14 [1,2,7] 92459842675200,
xp 16 14 [1,1,8] 67842224049600,
xm 16 14 [6,6] 8277251830848000,
xm 16 14 [5,7] 17078939202124800,
xm 16 14 [4,8] 18789309297158400,
xm 16 14 [3,9] 22236443752723200,
xm 16 14 [2,10] 29179998495648000,
xm 16 14 [1,11] 45934199600889600,
xp 16 14 [14] 19154175561480960000,
xm 17 14 [1,1,1,2,2] 459459000,
xm 17 14 [1,1,1,1,3] 283783500,
xp 17 14 [2,2,2,3] 200497096800,
xp 17 14 [1,2,3,3] 705219372000,
xp 17 14 [1,2,2,4] 766528963200,
xp 17 14 [1,1,3,4] 897426129600,
xp 17 14 [1,1,2,5] 1027177351200,
xp 17 14 [1,1,1,6] 474096823200,
xm 17 14 [3,4,4] 143007424560000,
xm 17 14 [3,3,5] 150087936398400,
xm 17 14 [2,4,5] 326055890160000,
xm 17 14 [1,5,5] 217714160664000,
xm 17 14 [2,3,6] 353212187328000,
xm 17 14 [1,4,6] 449501907254400,
xm 17 14 [2,2,7] 213077754489600,
xm 17 14 [1,3,7] 499404733027200,
xm 17 14 [1,2,8] 617202842256000,
xm 17 14 [1,1,9] 457754136840000,
xp 17 14 [6,7] 123979299155712000,
xp 17 14 [5,8] 130824963574905600,
xp 17 14 [4,9] 146154449304864000,
xp 17 14 [3,10] 174858197984870400,
xp 17 14 [2,11] 231089486877849600,
xp 17 14 [1,12] 363819517174713600,
xm 17 14 [15] 172387580053328640000,
xp 18 14 [1,1,2,2,2] 1216215000,
xp 18 14 [1,1,1,2,3] 2972970000,
xp 18 14 [1,1,1,1,4] 1013512500,
xm 18 14 [2,2,3,3] 1109037037680,
xm 18 14 [1,3,3,3] 865046239200,
xm 18 14 [2,2,2,4] 802014333120,
xm 18 14 [1,2,3,4] 5627497075200,
xm 18 14 [1,1,4,4] 1781219840400,
xm 18 14 [1,2,2,5] 3210613005600,
xm 18 14 [1,1,3,5] 3748882737600,
xm 18 14 [1,1,2,6] 4425098277600,
xm 18 14 [1,1,1,7] 2078592516000,
xp 18 14 [4,4,4] 220261141900800,
xp 18 14 [3,4,5] 1387733098752000,
xp 18 14 [2,5,5] 790251101640000,
xp 18 14 [3,3,6] 752074404681600,
xp 18 14 [2,4,6] 1631457914486400,
xp 18 14 [1,5,6] 2170884229113600,
xp 18 14 [2,3,7] 1810488394915200,
xp 18 14 [1,4,7] 2294699716108800,
xp 18 14 [2,2,8] 1112347903867200,
xp 18 14 [1,3,8] 2600171929555200,
xp 18 14 [1,2,9] 3261324306240000,
xp 18 14 [1,1,10] 2437181346600000,
xm 18 14 [7,7] 359611758874368000,
xm 18 14 [6,8] 736061459829696000,
xm 18 14 [5,9] 789854902252416000,
xm 18 14 [4,10] 892894657720665600,
xm 18 14 [3,11] 1077486625344729600,
xm 18 14 [2,12] 1431052631994585600,
xm 18 14 [1,13] 2252926392606489600,
xm 19 14 [1,2,2,2,2] 1354052700,
xm 19 14 [1,1,2,2,3] 9810801000,
xm 19 14 [1,1,1,3,3] 3945942000,
xm 19 14 [1,1,1,2,4] 8789180400,
xm 19 14 [1,1,1,1,5] 3154050900,
xp 19 14 [2,3,3,3] 2286623196000,
xp 19 14 [2,2,3,4] 7428706084800,
xp 19 14 [1,3,3,4] 8669016813600,
xp 19 14 [1,2,4,4] 9381504132000,
xp 19 14 [2,2,2,5] 2819115018720,
xp 19 14 [1,2,3,5] 19725385680000,
xp 19 14 [1,1,4,5] 12429674056800,
xp 19 14 [1,2,2,6] 11610163524960,
xp 19 14 [1,1,3,6] 13519943236800,
xp 19 14 [1,1,2,7] 16294699380960,
xp 19 14 [1,1,1,8] 7743754418400,
xm 19 14 [4,4,5] 2668778131219200,
xm 19 14 [3,5,5] 2802499900200000,
xm 19 14 [3,4,6] 5787098645328000,
xm 19 14 [2,5,6] 6581613829190400,
xm 19 14 [1,6,6] 4504657592635200,
xm 19 14 [3,3,7] 3210010541337600,
xm 19 14 [2,4,7] 6953385963363840,
xm 19 14 [1,5,7] 9219309007708800,
xm 19 14 [2,3,8] 7860656355552000,
xm 19 14 [1,4,8] 9926878116355200,
xm 19 14 [2,2,9] 4897919175589440,
xm 19 14 [1,3,9] 11423428403587200,
xm 19 14 [1,2,10] 14487106810176000,
xm 19 14 [1,1,11] 10881302805172800,
xp 19 14 [7,8] 3527098862519232000,
xp 19 14 [6,9] 3673681476585120000,
xp 19 14 [5,10] 3993231611002233600,
xp 19 14 [4,11] 4556624801381452800,
xp 19 14 [3,12] 5536107137098137600,
xp 19 14 [2,13] 7378933361729529600,
xp 19 14 [1,14] 11611429613726342400,
xp 15 15 [1,1,1,1,1] 540540,
xm 15 15 [1,2,2,2] 1625944320,
xm 15 15 [1,1,2,3] 5859453600,
xm 15 15 [1,1,1,4] 2572970400,
xp 15 15 [3,3,3] 214980480000,
xp 15 15 [2,3,4] 1395890496000,
xp 15 15 [1,4,4] 907602696000,
xp 15 15 [2,2,5] 791142992640,
xp 15 15 [1,3,5] 1902095395200,
xp 15 15 [1,2,6] 2230155607680,
xp 15 15 [1,1,7] 1622623242240,
xm 15 15 [5,6] 362487334809600,
xm 15 15 [4,7] 389577988800000,
xm 15 15 [3,8] 454136626944000,
xm 15 15 [2,9] 586593143136000,
xm 15 15 [1,10] 930406680403200,
xp 15 15 [13] 340014950795520000,
xm 16 15 [1,1,1,1,2] 29729700,
xp 16 15 [2,2,2,2] 4877832960,
xp 16 15 [1,2,2,3] 69664795200,
xp 16 15 [1,1,3,3] 41436252000,
xp 16 15 [1,1,2,4] 90724233600,
xp 16 15 [1,1,1,5] 41578336800,
xm 16 15 [3,3,4] 11494042560000,
xm 16 15 [2,4,4] 12494041560000,
xm 16 15 [2,3,5] 26180730576000,
xm 16 15 [1,4,5] 33846971558400,
xm 16 15 [2,2,6] 15393039742080,
xm 16 15 [1,3,6] 36628893100800,
xm 16 15 [1,2,7] 44248638994560,
xm 16 15 [1,1,8] 32724551059200,
xp 16 15 [6,6] 3987360682905600,
xp 16 15 [5,7] 8218537251724800,
xp 16 15 [4,8] 9022626220608000,
xp 16 15 [3,9] 10653288373728000,
xp 16 15 [2,10] 13936489760793600,
xp 16 15 [1,11] 22100971801708800,
xm 16 15 [14] 9180403671479040000,
xp 17 15 [1,1,1,2,2] 329729400,
xp 17 15 [1,1,1,1,3] 205405200,
xm 17 15 [2,2,2,3] 145777151520,
xm 17 15 [1,2,3,3] 517787899200,
xm 17 15 [1,2,2,4] 565772407200,
xm 17 15 [1,1,3,4] 669231763200,
xm 17 15 [1,1,2,5] 771718147200,
xm 17 15 [1,1,1,6] 363372609600,
xp 17 15 [3,4,4] 106842271536000,
xp 17 15 [3,3,5] 112064579827200,
xp 17 15 [2,4,5] 243910329062400,
xp 17 15 [1,5,5] 164533586817600,
xp 17 15 [2,3,6] 263998283028480,
xp 17 15 [1,4,6] 339633390096000,
xp 17 15 [2,2,7] 159315992035200,
xp 17 15 [1,3,7] 376790126993280,
xp 17 15 [1,2,8] 465334211422080,
xp 17 15 [1,1,9] 348301273320000,
xm 17 15 [6,7] 93290862471206400,
xm 17 15 [5,8] 98295201510105600,
xm 17 15 [4,9] 109590514409376000,
xm 17 15 [3,10] 130791692602771200,
xm 17 15 [2,11] 172630749574483200,
xm 17 15 [1,12] 273859867977696000,
xp 17 15 [15] 128525651400706560000,
xm 18 15 [1,1,2,2,2] 1248647400,
xm 18 15 [1,1,1,2,3] 3091888800,
xm 18 15 [1,1,1,1,4] 1070269200,
xp 18 15 [2,2,3,3] 1134513151200,
xp 18 15 [1,3,3,3] 892755864000,
xp 18 15 [2,2,2,4] 824864040000,
xp 18 15 [1,2,3,4] 5839821187200,
xp 18 15 [1,1,4,4] 1876214340000,
xp 18 15 [1,2,2,5] 3358504749600,
xp 18 15 [1,1,3,5] 3958136582400,
xp 18 15 [1,1,2,6] 4716903391200,
xp 18 15 [1,1,1,7] 2261835576000,
xm 18 15 [4,4,4] 229382833680000,
xm 18 15 [3,4,5] 1445045560358400,
xm 18 15 [2,5,5] 825226980177600,
xm 18 15 [3,3,6] 782812795564800,
xm 18 15 [2,4,6] 1703168286019200,
xm 18 15 [1,5,6] 2290522422988800,
xm 18 15 [2,3,7] 1888679226994560,
xm 18 15 [1,4,7] 2419833947731200,
xm 18 15 [2,2,8] 1162122271390080,
xm 18 15 [1,3,8] 2738065413283200,
xm 18 15 [1,2,9] 3437784583833600,
xm 18 15 [1,1,10] 2596042593144000,
xp 18 15 [7,7] 375294501418636800,
xp 18 15 [6,8] 767633819003251200,
xp 18 15 [5,9] 822375759677472000,
xp 18 15 [4,10] 927776472438816000,
xp 18 15 [3,11] 1117115550731980800,
xp 18 15 [2,12] 1483876634694854400,
xp 18 15 [1,13] 2354981328648748800,
xp 19 15 [1,2,2,2,2] 1840538700,
xp 19 15 [1,1,2,2,3] 13556743200,
xp 19 15 [1,1,1,3,3] 5545940400,
xp 19 15 [1,1,1,2,4] 12389176800,
xp 19 15 [1,1,1,1,5] 4543238700,
xm 19 15 [2,3,3,3] 3070458705600,
xm 19 15 [2,2,3,4] 10026800784000,
xm 19 15 [1,3,3,4] 11804263099200,
xm 19 15 [1,2,4,4] 12843187156800,
xm 19 15 [2,2,2,5] 3835715083200,
xm 19 15 [1,2,3,5] 27078978326400,
xm 19 15 [1,1,4,5] 17315161063200,
xm 19 15 [1,2,2,6] 16093475798400,
xm 19 15 [1,1,3,6] 18911613520800,
xm 19 15 [1,1,2,7] 23043998577600,
xm 19 15 [1,1,1,8] 11189307729600,
xp 19 15 [4,4,5] 3624575186232000,
xp 19 15 [3,5,5] 3807999132537600,
xp 19 15 [3,4,6] 7861493370931200,
xp 19 15 [2,5,6] 8975700170236800,
xp 19 15 [1,6,6] 6210918372859200,
xp 19 15 [3,3,7] 4360658437175040,
xp 19 15 [2,4,7] 9478348247047680,
xp 19 15 [1,5,7] 12709116977356800,
xp 19 15 [2,3,8] 10710533220266880,
xp 19 15 [1,4,8] 13673382564441600,
xp 19 15 [2,2,9] 6689718205410240,
xp 19 15 [1,3,9] 15719175026755200,
xp 19 15 [1,2,10] 19984571669462400,
xp 19 15 [1,1,11] 15187716444700800,
xm 19 15 [7,8] 4777242162082790400,
xm 19 15 [6,9] 4970388695682009600,
xm 19 15 [5,10] 5393506091029056000,
xm 19 15 [4,11] 6142255678624665600,
xm 19 15 [3,12] 7449615943241472000,
xm 19 15 [2,13] 9941410632676723200,
xm 19 15 [1,14] 15780093866420083200,
xp 16 16 [1,1,1,1,2] 5405400,
xm 16 16 [2,2,2,2] 934053120,
xm 16 16 [1,2,2,3] 13491878400,
xm 16 16 [1,1,3,3] 8123544000,
xm 16 16 [1,1,2,4] 17816198400,
xm 16 16 [1,1,1,5] 8302694400,
xp 16 16 [3,3,4] 2307417840000,
xp 16 16 [2,4,4] 2502248112000,
xp 16 16 [2,3,5] 5245557408000,
xp 16 16 [1,4,5] 6844486521600,
xp 16 16 [2,2,6] 3077705030400,
xp 16 16 [1,3,6] 7410154752000,
xp 16 16 [1,2,7] 8924877561600,
xp 16 16 [1,1,8] 6644750112000,
xm 16 16 [6,6] 813509972352000,
xm 16 16 [5,7] 1675523167718400,
xm 16 16 [4,8] 1835647894080000,
xm 16 16 [3,9] 2164823781120000,
xm 16 16 [2,10] 2820887125056000,
xm 16 16 [1,11] 4505374089216000,
xp 16 16 [14] 1873551769689600000,
xm 17 16 [1,1,1,2,2] 129729600,
xm 17 16 [1,1,1,1,3] 81081000,
xp 17 16 [2,2,2,3] 59156697600,
xp 17 16 [1,2,3,3] 212154228000,
xp 17 16 [1,2,2,4] 232527335040,
xp 17 16 [1,1,3,4] 277880803200,
xp 17 16 [1,1,2,5] 321859137600,
xp 17 16 [1,1,1,6] 154118764800,
xm 17 16 [3,4,4] 44815090320000,
xm 17 16 [3,3,5] 46994547600000,
xm 17 16 [2,4,5] 102292827436800,
xm 17 16 [1,5,5] 69651492019200,
xm 17 16 [2,3,6] 110708646048000,
xm 17 16 [1,4,6] 143800591334400,
xm 17 16 [2,2,7] 66784798080000,
xm 17 16 [1,3,7] 159474002688000,
xm 17 16 [1,2,8] 196660992528000,
xm 17 16 [1,1,9] 148339830038400,
xp 17 16 [6,7] 39582014126054400,
xp 17 16 [5,8] 41653678562496000,
xp 17 16 [4,9] 46359780667200000,
xp 17 16 [3,10] 55236087466560000,
xp 17 16 [2,11] 72754751893824000,
xp 17 16 [1,12] 116252730795801600,
xm 17 16 [15] 54333001320998400000,
xp 18 16 [1,1,2,2,2] 789188400,
xp 18 16 [1,1,1,2,3] 1967565600,
xp 18 16 [1,1,1,1,4] 686485800,
xm 18 16 [2,2,3,3] 727421666400,
xm 18 16 [1,3,3,3] 577250388000,
xm 18 16 [2,2,2,4] 530905415040,
xm 18 16 [1,2,3,4] 3790915128000,
xm 18 16 [1,1,4,4] 1233872640000,
xm 18 16 [1,2,2,5] 2191859429760,
xm 18 16 [1,1,3,5] 2606483880000,
xm 18 16 [1,1,2,6] 3126353630400,
xm 18 16 [1,1,1,7] 1525014691200,
xp 18 16 [4,4,4] 150597195840000,
xp 18 16 [3,4,5] 948497166489600,
xp 18 16 [2,5,5] 542409953904000,
xp 18 16 [3,3,6] 513743014512000,
xp 18 16 [2,4,6] 1119562862745600,
xp 18 16 [1,5,6] 1519976292307200,
xp 18 16 [2,3,7] 1241244510105600,
xp 18 16 [1,4,7] 1605878610336000,
xp 18 16 [2,2,8] 764412727478400,
xp 18 16 [1,3,8] 1815787589616000,
xp 18 16 [1,2,9] 2279894714697600,
xp 18 16 [1,1,10] 1736785895644800,
xm 18 16 [7,7] 248067714396902400,
xm 18 16 [6,8] 507124292875200000,
xm 18 16 [5,9] 542531973791808000,
xm 18 16 [4,10] 611088997559040000,
xm 18 16 [3,11] 734541911078976000,
xm 18 16 [2,12] 975124864787673600,
xm 18 16 [1,13] 1559211417219456000,
xm 19 16 [1,2,2,2,2] 1643241600,
xm 19 16 [1,1,2,2,3] 12227014800,
xm 19 16 [1,1,1,3,3] 5054049000,
xm 19 16 [1,1,1,2,4] 11308096800,
xm 19 16 [1,1,1,1,5] 4199995800,
xp 19 16 [2,3,3,3] 2751842808000,
xp 19 16 [2,2,3,4] 9023653679040,
xp 19 16 [1,3,3,4] 10708230218400,
xp 19 16 [1,2,4,4] 11701357668000,
xp 19 16 [2,2,2,5] 3472420311360,
xp 19 16 [1,2,3,5] 24712840152000,
xp 19 16 [1,1,4,5] 16006686696000,
xp 19 16 [1,2,2,6] 14790471696000,
xp 19 16 [1,1,3,6] 17526339230400,
xp 19 16 [1,1,2,7] 21527156851200,
xp 19 16 [1,1,1,8] 10639189360800,
xm 19 16 [4,4,5] 3304493127936000,
xm 19 16 [3,5,5] 3471975008611200,
xm 19 16 [3,4,6] 7167747729542400,
xm 19 16 [2,5,6] 8204675903424000,
xm 19 16 [1,6,6] 5733465574636800,
xm 19 16 [3,3,7] 3976268023728000]
def extA5_3 : PL := [
xm 19 16 [2,4,7] 8664488459827200,
xm 19 16 [1,5,7] 11732770451001600,
xm 19 16 [2,3,8] 9789740696736000,
xm 19 16 [1,4,8] 12621176654486400,
xm 19 16 [2,2,9] 6125724295891200,
xm 19 16 [1,3,9] 14499984808108800,
xm 19 16 [1,2,10] 18460137820924800,
xm 19 16 [1,1,11] 14167457227123200,
xp 19 16 [7,8] 4365614059116710400,
xp 19 16 [6,9] 4538100492813888000,
xp 19 16 [5,10] 4917460205129472000,
xp 19 16 [4,11] 5591591623537920000,
xp 19 16 [3,12] 6771711009384921600,
xp 19 16 [2,13] 9041969012940864000,
xp 19 16 [1,14] 14466826596942720000,
xp 17 17 [1,1,1,2,2] 21621600,
xp 17 17 [1,1,1,1,3] 13513500,
xm 17 17 [2,2,2,3] 10291881600,
xm 17 17 [1,2,3,3] 37250928000,
xm 17 17 [1,2,2,4] 40873472640,
xm 17 17 [1,1,3,4] 49340491200,
xm 17 17 [1,1,2,5] 57275618400,
xm 17 17 [1,1,1,6] 27826999200,
xp 17 17 [3,4,4] 8090730648000,
xp 17 17 [3,3,5] 8487559080000,
xp 17 17 [2,4,5] 18443657232000,
xp 17 17 [1,5,5] 12666609446400,
xp 17 17 [2,3,6] 19972650297600,
xp 17 17 [1,4,6] 26155303574400,
xp 17 17 [2,2,7] 12032394454080,
xp 17 17 [1,3,7] 29019906115200,
xp 17 17 [1,2,8] 35713002124800,
xp 17 17 [1,1,9] 27112491806400,
xm 17 17 [6,7] 7250825527545600,
xm 17 17 [5,8] 7623484700832000,
xm 17 17 [4,9] 8470909583136000,
xm 17 17 [3,10] 10083815460576000,
xm 17 17 [2,11] 13243587361804800,
xm 17 17 [1,12] 21302977529433600,
xp 17 17 [15] 9961050242183040000,
xm 18 17 [1,1,2,2,2] 281080800,
xm 18 17 [1,1,1,2,3] 702702000,
xm 18 17 [1,1,1,1,4] 245945700,
xp 18 17 [2,2,3,3] 266131008000,
xp 18 17 [1,3,3,3] 212895540000,
xp 18 17 [2,2,2,4] 194663589120,
xp 18 17 [1,2,3,4] 1401425625600,
xp 18 17 [1,1,4,4] 461217556800,
xp 18 17 [1,2,2,5] 812859727680,
xp 18 17 [1,1,3,5] 975112538400,
xp 18 17 [1,1,2,6] 1174442068800,
xp 18 17 [1,1,1,7] 581275094400,
xm 18 17 [4,4,4] 56635114536000,
xm 18 17 [3,4,5] 356677264944000,
xm 18 17 [2,5,5] 203992743427200,
xm 18 17 [3,3,6] 193226401368000,
xm 18 17 [2,4,6] 421154692358400,
xm 18 17 [1,5,6] 576635358499200,
xm 18 17 [2,3,7] 467028116755200,
xm 18 17 [1,4,7] 609386547369600,
xm 18 17 [2,2,8] 287624923185600,
xm 18 17 [1,3,8] 688996500192000,
xm 18 17 [1,2,9] 864407784240000,
xm 18 17 [1,1,10] 663305152910400,
xp 18 17 [7,7] 94260731858092800,
xp 18 17 [6,8] 192620714622336000,
xp 18 17 [5,9] 205837426162368000,
xp 18 17 [4,10] 231533990303616000,
xp 18 17 [3,11] 277978061481120000,
xp 18 17 [2,12] 368511441909811200,
xp 18 17 [1,13] 593291393735040000,
xp 19 17 [1,2,2,2,2] 929728800,
xp 19 17 [1,1,2,2,3] 6956749800,
xp 19 17 [1,1,1,3,3] 2891889000,
xp 19 17 [1,1,1,2,4] 6475669200,
xp 19 17 [1,1,1,1,5] 2421619200,
xm 19 17 [2,3,3,3] 1580801508000,
xm 19 17 [2,2,3,4] 5198965611840,
xm 19 17 [1,3,3,4] 6215385290400,
xm 19 17 [1,2,4,4] 6813081475200,
xm 19 17 [2,2,2,5] 2008581775200,
xm 19 17 [1,2,3,5] 14402969380800,
xm 19 17 [1,1,4,5] 9432877053600,
xm 19 17 [1,2,2,6] 8661487554720,
xm 19 17 [1,1,3,6] 10345092357600,
xm 19 17 [1,1,2,7] 12778205600160,
xm 19 17 [1,1,1,8] 6409485482400,
xp 19 17 [4,4,5] 1938517773192000,
xp 19 17 [3,5,5] 2036616723086400,
xp 19 17 [3,4,6] 4205215340726400,
xp 19 17 [2,5,6] 4819882488220800,
xp 19 17 [1,6,6] 3397942807459200,
xp 19 17 [3,3,7] 2333330466667200,
xp 19 17 [2,4,7] 5091467513932800,
xp 19 17 [1,5,7] 6954213499833600,
xp 19 17 [2,3,8] 5753372062838400,
xp 19 17 [1,4,8] 7482271955558400,
xp 19 17 [2,2,9] 3603874666392000,
xp 19 17 [1,3,9] 8593662065788800,
xp 19 17 [1,2,10] 10945208773699200,
xp 19 17 [1,1,11] 8468807098752000,
xm 19 17 [7,8] 2576886091132953600,
xm 19 17 [6,9] 2676881633602176000,
xm 19 17 [5,10] 2897265530839680000,
xm 19 17 [4,11] 3290447503927584000,
xm 19 17 [3,12] 3980191783177209600,
xm 19 17 [2,13] 5313670382064844800,
xm 19 17 [1,14] 8562825495544320000,
xp 18 18 [1,1,2,2,2] 43243200,
xp 18 18 [1,1,1,2,3] 108108000,
xp 18 18 [1,1,1,1,4] 37837800,
xm 18 18 [2,2,3,3] 42440112000,
xm 18 18 [1,3,3,3] 34208460000,
xm 18 18 [2,2,2,4] 31065914880,
xm 18 18 [1,2,3,4] 225383558400,
xm 18 18 [1,1,4,4] 74868393600,
xm 18 18 [1,2,2,5] 130923112320,
xm 18 18 [1,1,3,5] 158399841600,
xm 18 18 [1,1,2,6] 191221430400,
xm 18 18 [1,1,1,7] 95848552800,
xp 18 18 [4,4,4] 9306391248000,
xp 18 18 [3,4,5] 58628797920000,
xp 18 18 [2,5,5] 33500696947200,
xp 18 18 [3,3,6] 31779232848000,
xp 18 18 [2,4,6] 69178289241600,
xp 18 18 [1,5,6] 95439033043200,
xp 18 18 [2,3,7] 76761263779200,
xp 18 18 [1,4,7] 100884050467200,
xp 18 18 [2,2,8] 47232731145600,
xp 18 18 [1,3,8] 114119237232000,
xp 18 18 [1,2,9] 142963057036800,
xp 18 18 [1,1,10] 110371608547200,
xm 18 18 [7,7] 15695429320771200,
xm 18 18 [6,8] 32063895287424000,
xm 18 18 [5,9] 34234914954240000,
xm 18 18 [4,10] 38459938188672000,
xm 18 18 [3,11] 46144886179392000,
xm 18 18 [2,12] 61040779261862400,
xm 18 18 [1,13] 98881898955840000,
xm 19 18 [1,2,2,2,2] 302702400,
xm 19 18 [1,1,2,2,3] 2270268000,
xm 19 18 [1,1,1,3,3] 945945000,
xm 19 18 [1,1,1,2,4] 2118916800,
xm 19 18 [1,1,1,1,5] 794593800,
xp 19 18 [2,3,3,3] 527026500000,
xp 19 18 [2,2,3,4] 1736300966400,
xp 19 18 [1,3,3,4] 2090160072000,
xp 19 18 [1,2,4,4] 2295493200000,
xp 19 18 [2,2,2,5] 672362570880,
xp 19 18 [1,2,3,5] 4855649198400,
xp 19 18 [1,1,4,5] 3210158952000,
xp 19 18 [1,2,2,6] 2928827341440,
xp 19 18 [1,1,3,6] 3524753232000,
xp 19 18 [1,1,2,7] 4370075629920,
xp 19 18 [1,1,1,8] 2219976158400,
xm 19 18 [4,4,5] 661674149136000,
xm 19 18 [3,5,5] 695162666016000,
xm 19 18 [3,4,6] 1435717483200000,
xm 19 18 [2,5,6] 1645937035142400,
xm 19 18 [1,6,6] 1169500608460800,
xm 19 18 [3,3,7] 796936345920000,
xm 19 18 [2,4,7] 1739298757996800,
xm 19 18 [1,5,7] 2393738406259200,
xm 19 18 [2,3,8] 1966103979840000,
xm 19 18 [1,4,8] 2576309207472000,
xm 19 18 [2,2,9] 1231845600585600,
xm 19 18 [1,3,9] 2959298229888000,
xm 19 18 [1,2,10] 3767552037849600,
xm 19 18 [1,1,11] 2934946167753600,
xp 19 18 [7,8] 887693518359648000,
xp 19 18 [6,9] 921670284382848000,
xp 19 18 [5,10] 996602827828608000,
xp 19 18 [4,11] 1130672905217856000,
xp 19 18 [3,12] 1366536278435328000,
xp 19 18 [2,13] 1822665178414080000,
xp 19 18 [1,14] 2956048347732480000,
xp 19 19 [1,2,2,2,2] 43243200,
xp 19 19 [1,1,2,2,3] 324324000,
xp 19 19 [1,1,1,3,3] 135135000,
xp 19 19 [1,1,1,2,4] 302702400,
xp 19 19 [1,1,1,1,5] 113513400,
xm 19 19 [2,3,3,3] 77606100000,
xm 19 19 [2,2,3,4] 255826771200,
xm 19 19 [1,3,3,4] 309945636000,
xm 19 19 [1,2,4,4] 340641100800,
xm 19 19 [2,2,2,5] 99165306240,
xm 19 19 [1,2,3,5] 720907387200,
xm 19 19 [1,1,4,5] 480388708800,
xm 19 19 [1,2,2,6] 435528213120,
xm 19 19 [1,1,3,6] 527999472000,
xm 19 19 [1,1,2,7] 656098803360,
xm 19 19 [1,1,1,8] 337015879200,
xp 19 19 [4,4,5] 99915402787200,
xp 19 19 [3,5,5] 105000307776000,
xp 19 19 [3,4,6] 216899588505600,
xp 19 19 [2,5,6] 248490821779200,
xp 19 19 [1,6,6] 177789826368000,
xp 19 19 [3,3,7] 120469223160000,
xp 19 19 [2,4,7] 262664610848640,
xp 19 19 [1,5,7] 363934338768000,
xp 19 19 [2,3,8] 297098390160000,
xp 19 19 [1,4,8] 391801294684800,
xp 19 19 [2,2,9] 186033825394560,
xp 19 19 [1,3,9] 450260788348800,
xp 19 19 [1,2,10] 572629790304000,
xp 19 19 [1,1,11] 448609886524800,
xm 19 19 [7,8] 135613210981248000,
xm 19 19 [6,9] 140748294105619200,
xm 19 19 [5,10] 152079002947872000,
xm 19 19 [4,11] 172369276971091200,
xm 19 19 [3,12] 208230244526304000,
xm 19 19 [2,13] 277274096779680000,
xm 19 19 [1,14] 452254579961184000]
/-- row 5 -/
def extA5 : PL := extA5_0 ++ extA5_1 ++ extA5_2 ++ extA5_3
def extA6_0 : PL := [
xm 11 11 [1,2,2] 804323520,
xm 11 11 [1,1,3] 994593600,
xp 11 11 [3,4] 108972864000,
xp 11 11 [2,5] 130767436800,
xp 11 11 [1,6] 205491686400,
xm 11 11 [9] 37844718912000,
xm 12 11 [1,1,1,1] 21621600,
xp 12 11 [2,2,2] 2412970560,
xp 12 11 [1,2,3] 17902684800,
xp 12 11 [1,1,4] 12410798400,
xm 12 11 [4,4] 762810048000,
xm 12 11 [3,5] 1634592960000,
xm 12 11 [2,6] 2054916864000,
xm 12 11 [1,7] 3339239904000,
xp 12 11 [10] 719049659328000,
xp 13 11 [1,1,1,2] 345945600,
xm 13 11 [2,2,3] 41798877120,
xm 13 11 [1,3,3] 51502651200,
xm 13 11 [1,2,4] 114940425600,
xm 13 11 [1,1,5] 85059374400,
xp 13 11 [4,5] 11878042176000,
xp 13 11 [3,6] 13328938022400,
xp 13 11 [2,7] 17312674579200,
xp 13 11 [1,8] 28717463174400,
xm 13 11 [11] 7190496593280000,
xm 14 11 [1,1,2,2] 1427025600,
xm 14 11 [1,1,1,3] 1167566400,
xp 14 11 [2,3,3] 167740372800,
xp 14 11 [2,2,4] 186680894400,
xp 14 11 [1,3,4] 456821164800,
xp 14 11 [1,2,5] 544864320000,
xp 14 11 [1,1,6] 418637419200,
xm 14 11 [5,5] 32038022016000,
xm 14 11 [4,6] 67111716672000,
xm 14 11 [3,7] 77829976224000,
xm 14 11 [2,8] 103516437024000,
xm 14 11 [1,9] 173640475008000,
xp 14 11 [12] 50333476152960000,
xm 15 11 [1,1,1,1,1] 2702700,
xp 15 11 [1,2,2,2] 2075673600,
xp 15 11 [1,1,2,3] 7524316800,
xp 15 11 [1,1,1,4] 3372969600,
xm 15 11 [3,3,3] 175913337600,
xm 15 11 [2,3,4] 1172236665600,
xm 15 11 [1,4,4] 788799211200,
xm 15 11 [2,2,5] 695869574400,
xm 15 11 [1,3,5] 1686225340800,
xm 15 11 [1,2,6] 2101360060800,
xm 15 11 [1,1,7] 1647306460800,
xp 15 11 [5,6] 282270852864000,
xp 15 11 [4,7] 305589489004800,
xp 15 11 [3,8] 363155182790400,
xp 15 11 [2,9] 491536113868800,
xp 15 11 [1,10] 828131496192000,
xm 15 11 [13] 276834118841280000,
xp 16 11 [1,1,1,1,2] 18918900,
xm 16 11 [2,2,2,2] 972972000,
xm 16 11 [1,2,2,3] 13881067200,
xm 16 11 [1,1,3,3] 8237829600,
xm 16 11 [1,1,2,4] 18291873600,
xm 16 11 [1,1,1,5] 8562153600,
xp 16 11 [3,3,4] 1541706566400,
xp 16 11 [2,4,4] 1708668561600,
xp 16 11 [2,3,5] 3646699056000,
xp 16 11 [1,4,5] 4841422185600,
xp 16 11 [2,2,6] 2259007470720,
xp 16 11 [1,3,6] 5410502697600,
xp 16 11 [1,2,7] 6948109808640,
xp 16 11 [1,1,8] 5494048560000,
xm 16 11 [6,6] 516923677670400,
xm 16 11 [5,7] 1068701547513600,
xm 16 11 [4,8] 1185943895136000,
xm 16 11 [3,9] 1435873158720000,
xm 16 11 [2,10] 1968815847398400,
xm 16 11 [1,11] 3315197376691200,
xp 16 11 [14] 1273436946669888000,
xm 17 11 [1,1,1,2,2] 48648600,
xm 17 11 [1,1,1,1,3] 27027000,
xp 17 11 [2,2,2,3] 7697289600,
xp 17 11 [1,2,3,3] 26983756800,
xp 17 11 [1,2,2,4] 29837808000,
xp 17 11 [1,1,3,4] 34767532800,
xp 17 11 [1,1,2,5] 40994553600,
xp 17 11 [1,1,1,6] 19545926400,
xm 17 11 [3,4,4] 3917660947200,
xm 17 11 [3,3,5] 4175217446400,
xm 17 11 [2,4,5] 9232336713600,
xm 17 11 [1,5,5] 6435755726400,
xm 17 11 [2,3,6] 10290930249600,
xm 17 11 [1,4,6] 13459964918400,
xm 17 11 [2,2,7] 6564162084480,
xm 17 11 [1,3,7] 15524395286400,
xm 17 11 [1,2,8] 20356130995200,
xm 17 11 [1,1,9] 16112546049600,
xp 17 11 [6,7] 3388067530848000,
xp 17 11 [5,8] 3590430139296000,
xp 17 11 [4,9] 4061029452480000,
xp 17 11 [3,10] 4988824416576000,
xp 17 11 [2,11] 6905548121472000,
xp 17 11 [1,12] 11580483987072000,
xm 17 11 [15] 5093747786679552000,
xp 18 11 [1,1,2,2,2] 59459400,
xp 18 11 [1,1,1,2,3] 129729600,
xp 18 11 [1,1,1,1,4] 37837800,
xm 18 11 [2,2,3,3] 20562141600,
xm 18 11 [1,3,3,3] 15762146400,
xm 18 11 [2,2,2,4] 15091876800,
xm 18 11 [1,2,3,4] 104043139200,
xm 18 11 [1,1,4,4] 32756724000,
xm 18 11 [1,2,2,5] 60972912000,
xm 18 11 [1,1,3,5] 69794524800,
xm 18 11 [1,1,2,6] 85362076800,
xm 18 11 [1,1,1,7] 40886445600,
xp 18 11 [4,4,4] 2969078112000,
xp 18 11 [3,4,5] 18964651305600,
xp 18 11 [2,5,5] 11128853736000,
xp 18 11 [3,3,6] 10546238102400,
xp 18 11 [2,4,6] 23252992963200,
xp 18 11 [1,5,6] 31885460006400,
xp 18 11 [2,3,7] 26736025155840,
xp 18 11 [1,4,7] 34425738547200,
xp 18 11 [2,2,8] 17404678811520,
xp 18 11 [1,3,8] 40636759363200,
xp 18 11 [1,2,9] 54052875676800,
xp 18 11 [1,1,10] 42612411441600,
xm 18 11 [7,7] 4938838563859200,
xm 18 11 [6,8] 10126784424556800,
xm 18 11 [5,9] 10940377383936000,
xm 18 11 [4,10] 12562220518848000,
xm 18 11 [3,11] 15610278703219200,
xm 18 11 [2,12] 21753144430617600,
xm 18 11 [1,13] 36240102830131200,
xm 19 11 [1,2,2,2,2] 35135100,
xm 19 11 [1,1,2,2,3] 227026800,
xm 19 11 [1,1,1,3,3] 81081000,
xm 19 11 [1,1,1,2,4] 172972800,
xm 19 11 [1,1,1,1,5] 51351300,
xp 19 11 [2,3,3,3] 22508085600,
xp 19 11 [2,2,3,4] 73945872000,
xp 19 11 [1,3,3,4] 83740456800,
xp 19 11 [1,2,4,4] 91589097600,
xp 19 11 [2,2,2,5] 28713484800,
xp 19 11 [1,2,3,5] 194853859200,
xp 19 11 [1,1,4,5] 119999880000,
xp 19 11 [1,2,2,6] 118313395200,
xp 19 11 [1,1,3,6] 133232299200,
xp 19 11 [1,1,2,7] 166637671200,
xp 19 11 [1,1,1,8] 79545866400,
xm 19 11 [4,4,5] 19665018172800,
xm 19 11 [3,5,5] 20912281790400,
xm 19 11 [3,4,6] 43658421206400,
xm 19 11 [2,5,6] 51015646281600,
xm 19 11 [1,6,6] 35908374902400,
xm 19 11 [3,3,7] 25026915513600,
xm 19 11 [2,4,7] 54996788246400,
xm 19 11 [1,5,7] 74157244761600,
xm 19 11 [2,3,8] 64698746112000,
xm 19 11 [1,4,8] 81994815302400,
xm 19 11 [2,2,9] 42714249177600,
xm 19 11 [1,3,9] 98485782595200,
xm 19 11 [1,2,10] 132251024505600,
xm 19 11 [1,1,11] 103497885691200,
xp 19 11 [7,8] 26789951155968000,
xp 19 11 [6,9] 28002352105728000,
xp 19 11 [5,10] 30718952199936000,
xp 19 11 [4,11] 35703153053568000,
xp 19 11 [3,12] 44772528632832000,
xp 19 11 [2,13] 62670854518272000,
xp 19 11 [1,14] 103543150943232000,
xp 12 12 [1,1,1,1] 23423400,
xm 12 12 [2,2,2] 2338839360,
xm 12 12 [1,2,3] 18273340800,
xm 12 12 [1,1,4] 12929716800,
xp 12 12 [4,4] 759783024000,
xp 12 12 [3,5] 1642376736000,
xp 12 12 [2,6] 2037792556800,
xp 12 12 [1,7] 3413445235200,
xm 12 12 [10] 719049659328000,
xm 13 12 [1,1,1,2] 761080320,
xp 13 12 [2,2,3] 89902612800,
xp 13 12 [1,3,3] 111104136000,
xp 13 12 [1,2,4] 248302454400,
xp 13 12 [1,1,5] 184086302400,
xm 13 12 [4,5] 25172731584000,
xm 13 12 [3,6] 28255106880000,
xm 13 12 [2,7] 36731638944000,
xm 13 12 [1,8] 61219398240000,
xp 13 12 [11] 15100042845888000,
xp 14 12 [1,1,2,2] 4994589600,
xp 14 12 [1,1,1,3] 3999996000,
xm 14 12 [2,3,3] 578890540800,
xm 14 12 [2,2,4] 648166147200,
xm 14 12 [1,3,4] 1559201529600,
xm 14 12 [1,2,5] 1866030566400,
xm 14 12 [1,1,6] 1416647232000,
xp 14 12 [5,5] 107528973552000,
xp 14 12 [4,6] 225410369184000,
xp 14 12 [3,7] 261334052179200,
xp 14 12 [2,8] 349061877964800,
xp 14 12 [1,9] 579914663328000,
xm 14 12 [12] 166100471304768000,
xp 15 12 [1,1,1,1,1] 12612600,
xm 15 12 [1,2,2,2] 10469178720,
xm 15 12 [1,1,2,3] 36985908960,
xm 15 12 [1,1,1,4] 16158542400,
xp 15 12 [3,3,3] 860292576000,
xp 15 12 [2,3,4] 5742351014400,
xp 15 12 [1,4,4] 3786590808000,
xp 15 12 [2,2,5] 3416299286400,
xp 15 12 [1,3,5] 8100056764800,
xp 15 12 [1,2,6] 10111903401600,
xp 15 12 [1,1,7] 7771581417600,
xm 15 12 [5,6] 1330558669440000,
xm 15 12 [4,7] 1441010450880000,
xm 15 12 [3,8] 1714143150720000,
xm 15 12 [2,9] 2326337133120000,
xm 15 12 [1,10] 3853853875872000,
xp 15 12 [13] 1273436946669888000,
xm 16 12 [1,1,1,1,2] 121621500,
xp 16 12 [2,2,2,2] 6587020440,
xp 16 12 [1,2,2,3] 92497204800,
xp 16 12 [1,1,3,3] 53805351600,
xp 16 12 [1,1,2,4] 118598800320,
xp 16 12 [1,1,1,5] 54075621600,
xm 16 12 [3,3,4] 10002448684800,
xm 16 12 [2,4,4] 11041842240000,
xm 16 12 [2,3,5] 23609082182400,
xm 16 12 [1,4,5] 30626823427200,
xm 16 12 [2,2,6] 14583682713600,
xm 16 12 [1,3,6] 34278452208000,
xm 16 12 [1,2,7] 43916842569600,
xm 16 12 [1,1,8] 33948939024000,
xp 16 12 [6,6] 3198762206640000,
xp 16 12 [5,7] 6614964195840000,
xp 16 12 [4,8] 7343844764256000,
xp 16 12 [3,9] 8907978983904000,
xp 16 12 [2,10] 12204921849120000,
xp 16 12 [1,11] 20152312820640000,
xm 16 12 [14] 7640621680019328000,
xp 17 12 [1,1,1,2,2] 410810400,
xp 17 12 [1,1,1,1,3] 229729500,
xm 17 12 [2,2,2,3] 65928582720,
xm 17 12 [1,2,3,3] 229634364960,
xm 17 12 [1,2,2,4] 250624614240,
xm 17 12 [1,1,3,4] 289167278400,
xm 17 12 [1,1,2,5] 336739122720,
xm 17 12 [1,1,1,6] 156799843200,
xp 17 12 [3,4,4] 32193697536000,
xp 17 12 [3,3,5] 34344021254400,
xp 17 12 [2,4,5] 75326973321600,
xp 17 12 [1,5,5] 51441937747200,
xp 17 12 [2,3,6] 84071786198400,
xp 17 12 [1,4,6] 107637168038400,
xp 17 12 [2,2,7] 53237758654080,
xp 17 12 [1,3,7] 124322470272000,
xp 17 12 [1,2,8] 161867513808000,
xp 17 12 [1,1,9] 125332804396800,
xm 17 12 [6,7] 26364840229728000,
xm 17 12 [5,8] 27949009888800000,
xm 17 12 [4,9] 31638185010432000,
xm 17 12 [3,10] 38935537280640000,
xm 17 12 [2,11] 53652458001542400,
xm 17 12 [1,12] 88227393199545600,
xp 17 12 [15] 38203108400096640000,
xp 18 12 [1,1,1,1,1,1] 45045,
xm 18 12 [1,1,2,2,2] 628828200,
xm 18 12 [1,1,1,2,3] 1405404000,
xm 18 12 [1,1,1,1,4] 411711300,
xp 18 12 [2,2,3,3] 217556539200,
xp 18 12 [1,3,3,3] 167416048800,
xp 18 12 [2,2,2,4] 157599842400,
xp 18 12 [1,2,3,4] 1088742695040,
xp 18 12 [1,1,4,4] 337891554000,
xp 18 12 [1,2,2,5] 626775589440,
xp 18 12 [1,1,3,5] 718053336000,
xp 18 12 [1,1,2,6] 863363460960,
xp 18 12 [1,1,1,7] 405913828320,
xm 18 12 [4,4,4] 29982858048000,
xm 18 12 [3,4,5] 191342709043200,
xm 18 12 [2,5,5] 111030505185600,
xm 18 12 [3,3,6] 106394766192000,
xm 18 12 [2,4,6] 232183032681600,
xm 18 12 [1,5,6] 312712681881600,
xm 18 12 [2,3,7] 266882587171200,
xm 18 12 [1,4,7] 337950451238400,
xm 18 12 [2,2,8] 171877449744000,
xm 18 12 [1,3,8] 398980790208000,
xm 18 12 [1,2,9] 524782956297600,
xm 18 12 [1,1,10] 405810405000000,
xp 18 12 [7,7] 46881915063984000,
xp 18 12 [6,8] 96145278989760000,
xp 18 12 [5,9] 103917573920160000,
xp 18 12 [4,10] 119463533725536000,
xp 18 12 [3,11] 148579479528480000,
xp 18 12 [2,12] 205440056613792000,
xp 18 12 [1,13] 336155715735840000,
xm 19 12 [1,1,1,1,1,2] 270270,
xp 19 12 [1,2,2,2,2] 448648200,
xp 19 12 [1,1,2,2,3] 2989186200,
xp 19 12 [1,1,1,3,3] 1108107000,
xp 19 12 [1,1,1,2,4] 2335132800,
xp 19 12 [1,1,1,1,5] 699999300,
xm 19 12 [2,3,3,3] 288544576320,
xm 19 12 [2,2,3,4] 936894198240,
xm 19 12 [1,3,3,4] 1072993521600,
xm 19 12 [1,2,4,4] 1157642085600,
xm 19 12 [2,2,2,5] 357275318400,
xm 19 12 [1,2,3,5] 2447400795840,
xm 19 12 [1,1,4,5] 1501295796000,
xm 19 12 [1,2,2,6] 1457317461600,
xm 19 12 [1,1,3,6] 1657684828800,
xm 19 12 [1,1,2,7] 2031824995200,
xm 19 12 [1,1,1,8] 958247690400,
xp 19 12 [4,4,5] 238370356224000,
xp 19 12 [3,5,5] 252750493195200,
xp 19 12 [3,4,6] 527990909846400,
xp 19 12 [2,5,6] 608563629273600,
xp 19 12 [1,6,6] 422573415264000,
xp 19 12 [3,3,7] 302013251654400,
xp 19 12 [2,4,7] 656614435276800,
xp 19 12 [1,5,7] 873000294566400,
xp 19 12 [2,3,8] 770656205404800,
xp 19 12 [1,4,8] 966358903910400,
xp 19 12 [2,2,9] 502096918752000,
xp 19 12 [1,3,9] 1158419017641600,
xp 19 12 [1,2,10] 1533569777625600,
xp 19 12 [1,1,11] 1181812656024000,
xm 19 12 [7,8] 303326107051968000,
xm 19 12 [6,9] 317144737990080000,
xm 19 12 [5,10] 348142473911232000,
xm 19 12 [4,11] 405149977552320000,
xm 19 12 [3,12] 507773947057977600,
xm 19 12 [2,13] 703446281720582400,
xm 19 12 [1,14] 1144367532820512000,
xp 13 13 [1,1,1,2] 415134720,
xm 13 13 [2,2,3] 49037788800,
xm 13 13 [1,3,3] 60602256000,
xm 13 13 [1,2,4] 135437702400,
xm 13 13 [1,1,5] 100410710400,
xp 13 13 [4,5] 13730580864000,
xp 13 13 [3,6] 15411876480000,
xp 13 13 [2,7] 20035439424000,
xp 13 13 [1,8] 33392399040000,
xm 13 13 [11] 8236387006848000,
xm 14 13 [1,1,2,2] 5747021280,
xm 14 13 [1,1,1,3] 4562157600,
xp 14 13 [2,3,3] 672184656000,
xp 14 13 [2,2,4] 749577628800,
xp 14 13 [1,3,4] 1798052256000,
xp 14 13 [1,2,5] 2148322176000,
xp 14 13 [1,1,6] 1618247030400,
xm 14 13 [5,5] 123575227776000,
xm 14 13 [4,6] 258919524864000,
xm 14 13 [3,7] 300531591360000,
xm 14 13 [2,8] 400708788480000,
xm 14 13 [1,9] 662282580960000,
xp 14 13 [12] 189436901157504000,
xm 15 13 [1,1,1,1,1] 21621600,
xp 15 13 [1,2,2,2] 19251872640,
xp 15 13 [1,1,2,3] 67558851360,
xp 15 13 [1,1,1,4] 29081052000,
xm 15 13 [3,3,3] 1589558256000,
xm 15 13 [2,3,4] 10565697542400,
xm 15 13 [1,4,4] 6908101200000,
xm 15 13 [2,2,5] 6260491036800,
xm 15 13 [1,3,5] 14779833868800,
xm 15 13 [1,2,6] 18372824870400,
xm 15 13 [1,1,7] 13973434675200,
xp 15 13 [5,6] 2408736185856000,
xp 15 13 [4,7] 2609230688064000,
xp 15 13 [3,8] 3105493110720000,
xp 15 13 [2,9] 4201876879200000,
xp 15 13 [1,10] 6906661201440000,
xm 15 13 [13] 2273242813890048000,
xp 16 13 [1,1,1,1,2] 302702400,
xm 16 13 [2,2,2,2] 17241063840,
xm 16 13 [1,2,2,3] 240466786560,
xm 16 13 [1,1,3,3] 139416076800,
xm 16 13 [1,1,2,4] 305145640800,
xm 16 13 [1,1,1,5] 137275538400,
xp 16 13 [3,3,4] 25969456656000,
xp 16 13 [2,4,4] 28562566032000,
xp 16 13 [2,3,5] 60970317408000,
xp 16 13 [1,4,5] 78483813408000,
xp 16 13 [2,2,6] 37481216572800,
xp 16 13 [1,3,6] 87744950092800,
xp 16 13 [1,2,7] 111736104480000,
xp 16 13 [1,1,8] 85484541542400,
xm 16 13 [6,6] 8091235152000000,
xm 16 13 [5,7] 16732674294336000,
xm 16 13 [4,8] 18586209305664000,
xm 16 13 [3,9] 22534303952160000,
xm 16 13 [2,10] 30748834116000000,
xm 16 13 [1,11] 50333476152960000,
xp 16 13 [14] 18943690115750400000,
xm 17 13 [1,1,1,2,2] 1383782400,
xm 17 13 [1,1,1,1,3] 783783000,
xp 17 13 [2,2,2,3] 227986799040,
xp 17 13 [1,2,3,3] 791817586560,
xp 17 13 [1,2,2,4] 859977518400]
def extA6_1 : PL := [
xp 17 13 [1,1,3,4] 992647656000,
xp 17 13 [1,1,2,5] 1143977234400,
xp 17 13 [1,1,1,6] 528064336800,
xm 17 13 [3,4,4] 109965295440000,
xm 17 13 [3,3,5] 117030517718400,
xm 17 13 [2,4,5] 255829365792000,
xm 17 13 [1,5,5] 173282421312000,
xm 17 13 [2,3,6] 284811477350400,
xm 17 13 [1,4,6] 362552718528000,
xm 17 13 [2,2,7] 179263474790400,
xm 17 13 [1,3,7] 417633831014400,
xm 17 13 [1,2,8] 539878033094400,
xm 17 13 [1,1,9] 414399672086400,
xp 17 13 [6,7] 87169573370880000,
xp 17 13 [5,8] 92428105625856000,
xp 17 13 [4,9] 104666248630944000,
xp 17 13 [3,10] 128621955702240000,
xp 17 13 [2,11] 176356390129920000,
xp 17 13 [1,12] 287619863731200000,
xm 17 13 [15] 123133985752377600000,
xm 18 13 [1,1,1,1,1,1] 270270,
xp 18 13 [1,1,2,2,2] 2724321600,
xp 18 13 [1,1,1,2,3] 6183777600,
xp 18 13 [1,1,1,1,4] 1854052200,
xm 18 13 [2,2,3,3] 953746073280,
xm 18 13 [1,3,3,3] 734334400800,
xm 18 13 [2,2,2,4] 687566880000,
xm 18 13 [1,2,3,4] 4759692537600,
xm 18 13 [1,1,4,4] 1478787710400,
xm 18 13 [1,2,2,5] 2717381066400,
xm 18 13 [1,1,3,5] 3126526603200,
xm 18 13 [1,1,2,6] 3718971416160,
xm 18 13 [1,1,1,7] 1743202581120,
xp 18 13 [4,4,4] 129152303280000,
xp 18 13 [3,4,5] 822145772448000,
xp 18 13 [2,5,5] 474382228320000,
xp 18 13 [3,3,6] 455591414678400,
xp 18 13 [2,4,6] 991119095366400,
xp 18 13 [1,5,6] 1327256791660800,
xp 18 13 [2,3,7] 1135416291609600,
xp 18 13 [1,4,7] 1433304512640000,
xp 18 13 [2,2,8] 726002128051200,
xp 18 13 [1,3,8] 1685442811852800,
xp 18 13 [1,2,9] 2199891248755200,
xp 18 13 [1,1,10] 1690657163395200,
xm 18 13 [7,7] 194124913766784000,
xm 18 13 [6,8] 398142711046080000,
xm 18 13 [5,9] 430475886064224000,
xm 18 13 [4,10] 494829717494112000,
xm 18 13 [3,11] 614030564347200000,
xm 18 13 [2,12] 844164300051072000,
xm 18 13 [1,13] 1371587225168160000,
xp 19 13 [1,1,1,1,1,2] 2162160,
xm 19 13 [1,2,2,2,2] 2399997600,
xm 19 13 [1,1,2,2,3] 16313497200,
xm 19 13 [1,1,1,3,3] 6162156000,
xm 19 13 [1,1,1,2,4] 13059446400,
xm 19 13 [1,1,1,1,5] 4043239200,
xp 19 13 [2,3,3,3] 1557105469920,
xp 19 13 [2,2,3,4] 5035973342400,
xp 19 13 [1,3,3,4] 5796426636000,
xp 19 13 [1,2,4,4] 6239907273600,
xp 19 13 [2,2,2,5] 1905662959200,
xp 19 13 [1,2,3,5] 13141997668800,
xp 19 13 [1,1,4,5] 8110521619200,
xp 19 13 [1,2,2,6] 7749799817760,
xp 19 13 [1,1,3,6] 8886953275200,
xp 19 13 [1,1,2,7] 10789040021760,
xp 19 13 [1,1,1,8] 5101746249600,
xm 19 13 [4,4,5] 1253830097520000,
xm 19 13 [3,5,5] 1326273700752000,
xm 19 13 [3,4,6] 2766657557664000,
xm 19 13 [2,5,6] 3171927638880000,
xm 19 13 [1,6,6] 2193450952492800,
xm 19 13 [3,3,7] 1576216196755200,
xm 19 13 [2,4,7] 3416915761459200,
xm 19 13 [1,5,7] 4530956247417600,
xm 19 13 [2,3,8] 3993469390310400,
xm 19 13 [1,4,8] 5006991749760000,
xm 19 13 [2,2,9] 2581463623939200,
xm 19 13 [1,3,9] 5973026848588800,
xm 19 13 [1,2,10] 7845878078438400,
xm 19 13 [1,1,11] 6026660178739200,
xp 19 13 [7,8] 1526618287434240000,
xp 19 13 [6,9] 1596473730659808000,
xp 19 13 [5,10] 1752995207003040000,
xp 19 13 [4,11] 2038710590908992000,
xp 19 13 [3,12] 2547517253561280000,
xp 19 13 [2,13] 3507164713372320000,
xp 19 13 [1,14] 5675099436246240000,
xp 14 14 [1,1,2,2] 2181619440,
xp 14 14 [1,1,1,3] 1729728000,
xm 14 14 [2,3,3] 261405144000,
xm 14 14 [2,2,4] 287869982400,
xm 14 14 [1,3,4] 696215520000,
xm 14 14 [1,2,5] 828193766400,
xm 14 14 [1,1,6] 620756136000,
xp 14 14 [5,5] 48109042800000,
xp 14 14 [4,6] 100563791328000,
xp 14 14 [3,7] 117109504512000,
xp 14 14 [2,8] 155122871904000,
xp 14 14 [1,9] 256311959904000,
xm 14 14 [12] 73669906005696000,
xp 15 14 [1,1,1,1,1] 16216200,
xm 15 14 [1,2,2,2] 15428556000,
xm 15 14 [1,1,2,3] 54359791200,
xm 15 14 [1,1,1,4] 23221598400,
xp 15 14 [3,3,3] 1307025720000,
xp 15 14 [2,3,4] 8627018400000,
xp 15 14 [1,4,4] 5633291664000,
xp 15 14 [2,2,5] 5075411140800,
xp 15 14 [1,3,5] 12049285248000,
xp 15 14 [1,2,6] 14872460803200,
xp 15 14 [1,1,7] 11260659009600,
xm 15 14 [5,6] 1963473063552000,
xm 15 14 [4,7] 2127095818848000,
xm 15 14 [3,8] 2532256927200000,
xm 15 14 [2,9] 3406024702080000,
xm 15 14 [1,10] 5588976897504000,
xp 15 14 [13] 1841747650142400000,
xm 16 14 [1,1,1,1,2] 367567200,
xp 16 14 [2,2,2,2] 21973414320,
xp 16 14 [1,2,2,3] 306766025280,
xp 16 14 [1,1,3,3] 178779744000,
xp 16 14 [1,1,2,4] 388886097600,
xp 16 14 [1,1,1,5] 173945772000,
xm 16 14 [3,3,4] 33593479920000,
xm 16 14 [2,4,4] 36825260472000,
xm 16 14 [2,3,5] 78379251350400,
xm 16 14 [1,4,5] 100951250400000,
xm 16 14 [2,2,6] 47909141280000,
xm 16 14 [1,3,6] 112584536064000,
xm 16 14 [1,2,7] 142334387395200,
xm 16 14 [1,1,8] 108525296880000,
xp 16 14 [6,6] 10346564788560000,
xp 16 14 [5,7] 21395423361312000,
xp 16 14 [4,8] 23774646063168000,
xp 16 14 [3,9] 28776456412704000,
xp 16 14 [2,10] 39062630775168000,
xp 16 14 [1,11] 63799315227648000,
xm 16 14 [14] 23942719451851200000,
xp 17 14 [1,1,1,2,2] 2406484080,
xp 17 14 [1,1,1,1,3] 1383782400,
xm 17 14 [2,2,2,3] 409936269600,
xm 17 14 [1,2,3,3] 1426061894400,
xm 17 14 [1,2,2,4] 1546197681600,
xm 17 14 [1,1,3,4] 1794682375200,
xm 17 14 [1,1,2,5] 2052084434400,
xm 17 14 [1,1,1,6] 945793648800,
xp 17 14 [3,4,4] 199082827944000,
xp 17 14 [3,3,5] 211197194208000,
xp 17 14 [2,4,5] 461136836160000,
xp 17 14 [1,5,5] 311962066416000,
xp 17 14 [2,3,6] 511399531843200,
xp 17 14 [1,4,6] 652267455840000,
xp 17 14 [2,2,7] 320173171718400,
xp 17 14 [1,3,7] 748206646387200,
xp 17 14 [1,2,8] 961033244371200,
xp 17 14 [1,1,9] 736302398832000,
xm 17 14 [6,7] 155114372020608000,
xm 17 14 [5,8] 164495409990912000,
xm 17 14 [4,9] 186247960778880000,
xm 17 14 [3,10] 228242073163104000,
xm 17 14 [2,11] 311511922866144000,
xm 17 14 [1,12] 506995377977088000,
xp 17 14 [15] 215484475066660800000,
xp 18 14 [1,1,1,1,1,1] 675675,
xm 18 14 [1,1,2,2,2] 6322155840,
xm 18 14 [1,1,1,2,3] 14540526000,
xm 18 14 [1,1,1,1,4] 4472968500,
xp 18 14 [2,2,3,3] 2261146155840,
xp 18 14 [1,3,3,3] 1744260804000,
xp 18 14 [2,2,2,4] 1628795900160,
xp 18 14 [1,2,3,4] 11314892160000,
xp 18 14 [1,1,4,4] 3540515378400,
xp 18 14 [1,2,2,5] 6436144915200,
xp 18 14 [1,1,3,5] 7451452008000,
xp 18 14 [1,1,2,6] 8804531736000,
xp 18 14 [1,1,1,7] 4139152617600,
xm 18 14 [4,4,4] 306398396304000,
xm 18 14 [3,4,5] 1945400432976000,
xm 18 14 [2,5,5] 1119550880448000,
xm 18 14 [3,3,6] 1073616872328000,
xm 18 14 [2,4,6] 2335459459132800,
xm 18 14 [1,5,6] 3129580005552000,
xm 18 14 [2,3,7] 2663854892899200,
xm 18 14 [1,4,7] 3373617729081600,
xm 18 14 [2,2,8] 1694685656664000,
xm 18 14 [1,3,8] 3947109998832000,
xm 18 14 [1,2,9] 5124397556678400,
xm 18 14 [1,1,10] 3938169683448000,
xp 18 14 [7,7] 449865318782880000,
xp 18 14 [6,8] 922706476211520000,
xp 18 14 [5,9] 997753752515520000,
xp 18 14 [4,10] 1145892654754848000,
xp 18 14 [3,11] 1417221075318048000,
xp 18 14 [2,12] 1940355505696608000,
xp 18 14 [1,13] 3148358933367648000,
xm 19 14 [1,1,1,1,1,2] 7297290,
xp 19 14 [1,2,2,2,2] 7073506440,
xp 19 14 [1,1,2,2,3] 48776167440,
xp 19 14 [1,1,1,3,3] 18670251600,
xp 19 14 [1,1,1,2,4] 39956716800,
xp 19 14 [1,1,1,1,5] 12775662900,
xm 19 14 [2,3,3,3] 4659266383200,
xm 19 14 [2,2,3,4] 15070140914400,
xm 19 14 [1,3,3,4] 17413137799200,
xm 19 14 [1,2,4,4] 18781942608000,
xm 19 14 [2,2,2,5] 5689554773760,
xm 19 14 [1,2,3,5] 39462669417600,
xm 19 14 [1,1,4,5] 24584688928800,
xm 19 14 [1,2,2,6] 23172145476480,
xm 19 14 [1,1,3,6] 26769465122400,
xm 19 14 [1,1,2,7] 32354730888480,
xm 19 14 [1,1,1,8] 15409022428800,
xp 19 14 [4,4,5] 3727392596928000,
xp 19 14 [3,5,5] 3935726226432000,
xp 19 14 [3,4,6] 8194843697040000,
xp 19 14 [2,5,6] 9382860930643200,
xp 19 14 [1,6,6] 6494237830080000,
xp 19 14 [3,3,7] 4648940778081600,
xp 19 14 [2,4,7] 10082414566224000,
xp 19 14 [1,5,7] 13406753728368000,
xp 19 14 [2,3,8] 11729568205555200,
xp 19 14 [1,4,8] 14773410956304000,
xp 19 14 [2,2,9] 7546403913048000,
xp 19 14 [1,3,9] 17532679115952000,
xp 19 14 [1,2,10] 22930820139427200,
xp 19 14 [1,1,11] 17649830782584000,
xm 19 14 [7,8] 4415850919928448000,
xm 19 14 [6,9] 4618369141626240000,
xm 19 14 [5,10] 5070393716195808000,
xm 19 14 [4,11] 5887578037172832000,
xm 19 14 [3,12] 7331070801678624000,
xm 19 14 [2,13] 10054798227137664000,
xm 19 14 [1,14] 16265262818829024000,
xm 15 15 [1,1,1,1,1] 4504500,
xp 15 15 [1,2,2,2] 4570188480,
xp 15 15 [1,1,2,3] 16262532000,
xp 15 15 [1,1,1,4] 6926119200,
xm 15 15 [3,3,3] 402161760000,
xm 15 15 [2,3,4] 2633510880000,
xm 15 15 [1,4,4] 1723890168000,
xm 15 15 [2,2,5] 1536517382400,
xm 15 15 [1,3,5] 3685617936000,
xm 15 15 [1,2,6] 4512254947200,
xm 15 15 [1,1,7] 3413445235200,
xp 15 15 [5,6] 604145558016000,
xp 15 15 [4,7] 654491021184000,
xp 15 15 [3,8] 779155977600000,
xp 15 15 [2,9] 1040729770080000,
xp 15 15 [1,10] 1710466613856000,
xm 15 15 [13] 566691584659200000,
xp 16 15 [1,1,1,1,2] 218918700,
xm 16 15 [2,2,2,2] 13710565440,
xm 16 15 [1,2,2,3] 192787452000,
xm 16 15 [1,1,3,3] 113374404000,
xm 16 15 [1,1,2,4] 245318673600,
xm 16 15 [1,1,1,5] 109621512000,
xp 16 15 [3,3,4] 21612951360000,
xp 16 15 [2,4,4] 23606246664000,
xp 16 15 [2,3,5] 50123625552000,
xp 16 15 [1,4,5] 64838854080000,
xp 16 15 [2,2,6] 30438456048000,
xp 16 15 [1,3,6] 72093333312000,
xp 16 15 [1,2,7] 90493401398400,
xp 16 15 [1,1,8] 69010958016000,
xm 16 15 [6,6] 6645601138176000,
xm 16 15 [5,7] 13744311444864000,
xm 16 15 [4,8] 15271457160960000,
xm 16 15 [3,9] 18449300469600000,
xm 16 15 [2,10] 24905265473088000,
xm 16 15 [1,11] 40724357978304000,
xp 16 15 [14] 15300672785798400000,
xm 17 15 [1,1,1,2,2] 2295132840,
xm 17 15 [1,1,1,1,3] 1340539200,
xp 17 15 [2,2,2,3] 406101833280,
xp 17 15 [1,2,3,3] 1420631784000,
xp 17 15 [1,2,2,4] 1538889580800,
xp 17 15 [1,1,3,4] 1800498585600,
xp 17 15 [1,1,2,5] 2047327682400,
xp 17 15 [1,1,1,6] 945274730400,
xm 17 15 [3,4,4] 201136663728000,
xm 17 15 [3,3,5] 212816219616000,
xm 17 15 [2,4,5] 464242562784000,
xm 17 15 [1,5,5] 314917955352000,
xm 17 15 [2,3,6] 512897908723200,
xm 17 15 [1,4,6] 657662909904000,
xm 17 15 [2,2,7] 319462512969600,
xm 17 15 [1,3,7] 751149173174400,
xm 17 15 [1,2,8] 959363624419200,
xm 17 15 [1,1,9] 736024128840000,
xp 17 15 [6,7] 155718517578624000,
xp 17 15 [5,8] 165149901012096000,
xp 17 15 [4,9] 186869430427680000,
xp 17 15 [3,10] 228342992413536000,
xp 17 15 [2,11] 310302612075456000,
xp 17 15 [1,12] 505622646809280000,
xm 17 15 [15] 214209419001177600000,
xm 18 15 [1,1,1,1,1,1] 900900,
xp 18 15 [1,1,2,2,2] 8545937400,
xp 18 15 [1,1,1,2,3] 19902682800,
xp 18 15 [1,1,1,1,4] 6266660400,
xm 18 15 [2,2,3,3] 3146313456000,
xm 18 15 [1,3,3,3] 2437943508000,
xm 18 15 [2,2,2,4] 2268275724000,
xm 18 15 [1,2,3,4] 15839224315200,
xm 18 15 [1,1,4,4] 5000319324000,
xm 18 15 [1,2,2,5] 8995320734400,
xm 18 15 [1,1,3,5] 10490908428000,
xm 18 15 [1,1,2,6] 12345068736000,
xm 18 15 [1,1,1,7] 5831302276800,
xp 18 15 [4,4,4] 431699027760000,
xp 18 15 [3,4,5] 2735205913440000,
xp 18 15 [2,5,5] 1571783725512000,
xp 18 15 [3,3,6] 1504035685152000,
xp 18 15 [2,4,6] 3273860077488000,
xp 18 15 [1,5,6] 4404138298560000,
xp 18 15 [2,3,7] 3718106638646400,
xp 18 15 [1,4,7] 4736840236128000,
xp 18 15 [2,2,8] 2355833752272000,
xp 18 15 [1,3,8] 5515867781424000,
xp 18 15 [1,2,9] 7131503354976000,
xp 18 15 [1,1,10] 5495368558680000,
xm 18 15 [7,7] 626347907273088000,
xm 18 15 [6,8] 1284765874584192000,
xm 18 15 [5,9] 1389040319066400000,
xm 18 15 [4,10] 1593242597026080000,
xm 18 15 [3,11] 1964018776303584000,
xm 18 15 [2,12] 2680028816617152000,
xm 18 15 [1,13] 4355294681241504000,
xp 19 15 [1,1,1,1,1,2] 13513500,
xm 19 15 [1,2,2,2,2] 12630798180,
xm 19 15 [1,1,2,2,3] 88123155120,
xm 19 15 [1,1,1,3,3] 34118884800,
xm 19 15 [1,1,1,2,4] 73697223600,
xm 19 15 [1,1,1,1,5] 24213489300,
xp 19 15 [2,3,3,3] 8504748252000,
xp 19 15 [2,2,3,4] 27556735377600,
xp 19 15 [1,3,3,4] 31988622837600,
xp 19 15 [1,2,4,4] 34599180844800,
xp 19 15 [2,2,2,5] 10405991138400,
xp 19 15 [1,2,3,5] 72584841700800,
xp 19 15 [1,1,4,5] 45674808379200,
xp 19 15 [1,2,2,6] 42561492573600,
xp 19 15 [1,1,3,6] 49527777499200,
xp 19 15 [1,1,2,7] 59732697024000,
xp 19 15 [1,1,1,8] 28667517278400,
xm 19 15 [4,4,5] 6843128075784000,
xm 19 15 [3,5,5] 7215809432832000,
xm 19 15 [3,4,6] 15000716674944000,
xm 19 15 [2,5,6] 17177295255120000,
xm 19 15 [1,6,6] 11932133581368000,
xm 19 15 [3,3,7] 8477070701299200,
xm 19 15 [2,4,7] 18411429285849600,
xm 19 15 [1,5,7] 24609474201312000,
xm 19 15 [2,3,8] 21326672121955200,
xm 19 15 [1,4,8] 27036455558112000,
xm 19 15 [2,2,9] 13678138840766400,
xm 19 15 [1,3,9] 31939273141776000,
xm 19 15 [1,2,10] 41657574342384000,
xm 19 15 [1,1,11] 32196394614384000,
xp 19 15 [7,8] 7982172494360064000,
xp 19 15 [6,9] 8348235555756096000,
xp 19 15 [5,10] 9160676469584640000,
xp 19 15 [4,11] 10617839913608928000,
xp 19 15 [3,12] 13177075268316960000,
xp 19 15 [2,13] 18026705695654656000,
xp 19 15 [1,14] 29225904139688256000,
xm 16 16 [1,1,1,1,2] 51351300,
xp 16 16 [2,2,2,2] 3364815168,
xp 16 16 [1,2,2,3] 47872075680,
xp 16 16 [1,1,3,3] 28444759200,
xp 16 16 [1,1,2,4] 61271290080,
xp 16 16 [1,1,1,5] 27437810400,
xm 16 16 [3,3,4] 5528603808000,
xm 16 16 [2,4,4] 6010266225600,
xm 16 16 [2,3,5] 12753009360000,
xm 16 16 [1,4,5] 16586660563200,
xm 16 16 [2,2,6] 7685856097920,
xm 16 16 [1,3,6] 18386835667200,
xm 16 16 [1,2,7] 22927423559040,
xm 16 16 [1,1,8] 17515831132800,
xp 16 16 [6,6] 1708370941939200,
xp 16 16 [5,7] 3535428421324800,
xp 16 16 [4,8] 3924984615552000,
xp 16 16 [3,9] 4735353534912000,
xp 16 16 [2,10] 6355292758214400,
xp 16 16 [1,11] 10422197404819200,
xm 16 16 [14] 3934458716348160000,
xp 17 16 [1,1,1,2,2] 1143782640,
xp 17 16 [1,1,1,1,3] 678377700,
xm 17 16 [2,2,2,3] 210912530400,
xm 17 16 [1,2,3,3] 744138252000,
xm 17 16 [1,2,2,4] 805037032800,
xm 17 16 [1,1,3,4] 950377428000,
xm 17 16 [1,1,2,5] 1076651896320,
xm 17 16 [1,1,1,6] 498745447200,
xp 17 16 [3,4,4] 107451784440000,
xp 17 16 [3,3,5] 113522481072000]
def extA6_2 : PL := [
xp 17 16 [2,4,5] 247215839270400,
xp 17 16 [1,5,5] 168523562188800,
xp 17 16 [2,3,6] 272302170940800,
xp 17 16 [1,4,6] 351386632396800,
xp 17 16 [2,2,7] 168698399950080,
xp 17 16 [1,3,7] 399841935292800,
xp 17 16 [1,2,8] 508050173030400,
xp 17 16 [1,1,9] 390832733491200,
xm 17 16 [6,7] 83307357124992000,
xm 17 16 [5,8] 88356287859840000,
xm 17 16 [4,9] 99872213208768000,
xm 17 16 [3,10] 121748180954400000,
xm 17 16 [2,11] 164727740136960000,
xm 17 16 [1,12] 269178502713120000,
xp 17 16 [15] 114099302774096640000,
xp 18 16 [1,1,1,1,1,1] 675675,
xm 18 16 [1,1,2,2,2] 6764317560,
xm 18 16 [1,1,1,2,3] 15945930000,
xm 18 16 [1,1,1,1,4] 5121616500,
xp 18 16 [2,2,3,3] 2578868772480,
xp 18 16 [1,3,3,3] 2011883702400,
xp 18 16 [2,2,2,4] 1860948872640,
xp 18 16 [1,2,3,4] 13082671704960,
xp 18 16 [1,1,4,4] 4166385022800,
xp 18 16 [1,2,2,5] 7423711495200,
xp 18 16 [1,1,3,5] 8726737219200,
xp 18 16 [1,1,2,6] 10242670838400,
xp 18 16 [1,1,1,7] 4862589732000,
xm 18 16 [4,4,4] 361055579976000,
xm 18 16 [3,4,5] 2284300284739200,
xm 18 16 [2,5,5] 1310999278680000,
xm 18 16 [3,3,6] 1252670102611200,
xm 18 16 [2,4,6] 2727190228089600,
xm 18 16 [1,5,6] 3688699745203200,
xm 18 16 [2,3,7] 3085598350074240,
xm 18 16 [1,4,7] 3957996387945600,
xm 18 16 [2,2,8] 1947833278110720,
xm 18 16 [1,3,8] 4590807257836800,
xm 18 16 [1,2,9] 5913905177980800,
xm 18 16 [1,1,10] 4573964334139200,
xp 18 16 [7,7] 522052964995161600,
xp 18 16 [6,8] 1070893508651366400,
xp 18 16 [5,9] 1157363955715968000,
xp 18 16 [4,10] 1325654057695968000,
xp 18 16 [3,11] 1629556095674707200,
xp 18 16 [2,12] 2216672210482329600,
xp 18 16 [1,13] 3613225543787059200,
xm 19 16 [1,1,1,1,1,2] 14864850,
xp 19 16 [1,2,2,2,2] 14056202160,
xp 19 16 [1,1,2,2,3] 99101522520,
xp 19 16 [1,1,1,3,3] 38779111800,
xp 19 16 [1,1,1,2,4] 84378294000,
xp 19 16 [1,1,1,1,5] 28343214900,
xm 19 16 [2,3,3,3] 9737642772000,
xm 19 16 [2,2,3,4] 31615539040800,
xm 19 16 [1,3,3,4] 36914156136000,
xm 19 16 [1,2,4,4] 40015743768000,
xm 19 16 [2,2,2,5] 11951676696960,
xm 19 16 [1,2,3,5] 83870238291840,
xm 19 16 [1,1,4,5] 53278952126400,
xm 19 16 [1,2,2,6] 49174355149920,
xm 19 16 [1,1,3,6] 57643012627200,
xm 19 16 [1,1,2,7] 69437638670400,
xm 19 16 [1,1,1,8] 33559361035200,
xp 19 16 [4,4,5] 7943390759304000,
xp 19 16 [3,5,5] 8367274066132800,
xp 19 16 [3,4,6] 17374539771388800,
xp 19 16 [2,5,6] 19900826023478400,
xp 19 16 [1,6,6] 13893517090252800,
xp 19 16 [3,3,7] 9786787791580800,
xp 19 16 [2,4,7] 21283698673036800,
xp 19 16 [1,5,7] 28624012975958400,
xp 19 16 [2,3,8] 24560706509539200,
xp 19 16 [1,4,8] 31359840813100800,
xp 19 16 [2,2,9] 15713795140243200,
xp 19 16 [1,3,9] 36906979395686400,
xp 19 16 [1,2,10] 48028388728320000,
xp 19 16 [1,1,11] 37297432670097600,
xm 19 16 [7,8] 9200834775804672000,
xm 19 16 [6,9] 9621766001143296000,
xm 19 16 [5,10] 10550438469226656000,
xm 19 16 [4,11] 12207469486788576000,
xm 19 16 [3,12] 15106114541437920000,
xm 19 16 [2,13] 20621501986044960000,
xm 19 16 [1,14] 33548141811824640000,
xm 17 17 [1,1,1,2,2] 233513280,
xm 17 17 [1,1,1,1,3] 140540400,
xp 17 17 [2,2,2,3] 44991460800,
xp 17 17 [1,2,3,3] 160401384000,
xp 17 17 [1,2,2,4] 173154421440,
xp 17 17 [1,1,3,4] 206313307200,
xp 17 17 [1,1,2,5] 233175983040,
xp 17 17 [1,1,1,6] 108453945600,
xm 17 17 [3,4,4] 23709669984000,
xm 17 17 [3,3,5] 25043001984000,
xm 17 17 [2,4,5] 54377459136000,
xm 17 17 [1,5,5] 37292495385600,
xm 17 17 [2,3,6] 59775248332800,
xm 17 17 [1,4,6] 77617738598400,
xm 17 17 [2,2,7] 36820685341440,
xm 17 17 [1,3,7] 88065987609600,
xm 17 17 [1,2,8] 111355218374400,
xm 17 17 [1,1,9] 85934270822400,
xp 17 17 [6,7] 18512746027776000,
xp 17 17 [5,8] 19634730635520000,
xp 17 17 [4,9] 22164390376128000,
xp 17 17 [3,10] 26975256916608000,
xp 17 17 [2,11] 36331618241318400,
xp 17 17 [1,12] 59583572329881600,
xm 17 17 [15] 25355400616465920000,
xm 18 17 [1,1,1,1,1,1] 270270,
xp 18 17 [1,1,2,2,2] 2914591680,
xp 18 17 [1,1,1,2,3] 6951344400,
xp 18 17 [1,1,1,1,4] 2270268000,
xm 18 17 [2,2,3,3] 1156076064000,
xm 18 17 [1,3,3,3] 909497160000,
xm 18 17 [2,2,2,4] 834403489920,
xm 18 17 [1,2,3,4] 5912988681600,
xm 18 17 [1,1,4,4] 1897994498400,
xm 18 17 [1,2,2,5] 3353017187520,
xm 18 17 [1,1,3,5] 3973747377600,
xm 18 17 [1,1,2,6] 4656099127680,
xm 18 17 [1,1,1,7] 2221212913920,
xp 18 17 [4,4,4] 165967689888000,
xp 18 17 [3,4,5] 1049263383168000,
xp 18 17 [2,5,5] 601274618380800,
xp 18 17 [3,3,6] 574349263488000,
xp 18 17 [2,4,6] 1249432004620800,
xp 18 17 [1,5,6] 1700238213273600,
xp 18 17 [2,3,7] 1409483044569600,
xp 18 17 [1,4,7] 1820281509446400,
xp 18 17 [2,2,8] 886375935244800,
xp 18 17 [1,3,8] 2104834219488000,
xp 18 17 [1,2,9] 2701940908867200,
xp 18 17 [1,1,10] 2097954485827200,
xm 18 17 [7,7] 240665698361088000,
xm 18 17 [6,8] 493673227407360000,
xm 18 17 [5,9] 533269934188992000,
xm 18 17 [4,10] 609950215562688000,
xm 18 17 [3,11] 748138486455360000,
xm 18 17 [2,12] 1014377936539968000,
xm 18 17 [1,13] 1659596783644800000,
xp 19 17 [1,1,1,1,1,2] 9729720,
xm 19 17 [1,2,2,2,2] 9556747200,
xm 19 17 [1,1,2,2,3] 68041013040,
xm 19 17 [1,1,1,3,3] 26894181600,
xm 19 17 [1,1,1,2,4] 58821562800,
xm 19 17 [1,1,1,1,5] 20118898800,
xp 19 17 [2,3,3,3] 6850278864000,
xp 19 17 [2,2,3,4] 22273901432640,
xp 19 17 [1,3,3,4] 26185759142400,
xp 19 17 [1,2,4,4] 28420281489600,
xp 19 17 [2,2,2,5] 8429085624960,
xp 19 17 [1,2,3,5] 59542098295680,
xp 19 17 [1,1,4,5] 38146772664000,
xp 19 17 [1,2,2,6] 34921418051520,
xp 19 17 [1,1,3,6] 41236629033600,
xp 19 17 [1,1,2,7] 49634138473920,
xp 19 17 [1,1,1,8] 24135283972800,
xm 19 17 [4,4,5] 5694058161792000,
xm 19 17 [3,5,5] 5993632013241600,
xm 19 17 [3,4,6] 12435721704806400,
xm 19 17 [2,5,6] 14242288373913600,
xm 19 17 [1,6,6] 9998870520038400,
xm 19 17 [3,3,7] 6987142331769600,
xm 19 17 [2,4,7] 15204347001043200,
xm 19 17 [1,5,7] 20579001085843200,
xm 19 17 [2,3,8] 17491147741267200,
xm 19 17 [1,4,8] 22491784297382400,
xm 19 17 [2,2,9] 11164303387036800,
xm 19 17 [1,3,9] 26390967511708800,
xm 19 17 [1,2,10] 34267303505635200,
xm 19 17 [1,1,11] 26737389478800000,
xp 19 17 [7,8] 6590537585888256000,
xp 19 17 [6,9] 6890621719101120000,
xp 19 17 [5,10] 7549531735217472000,
xp 19 17 [4,11] 8721571211825472000,
xp 19 17 [3,12] 10766921879467353600,
xp 19 17 [2,13] 14666302034742758400,
xp 19 17 [1,14] 23954862842951040000,
xp 18 18 [1,1,1,1,1,1] 45045,
xm 18 18 [1,1,2,2,2] 529008480,
xm 18 18 [1,1,1,2,3] 1275674400,
xm 18 18 [1,1,1,1,4] 422522100,
xp 18 18 [2,2,3,3] 219127194000,
xp 18 18 [1,3,3,3] 173976660000,
xp 18 18 [2,2,2,4] 157993355520,
xp 18 18 [1,2,3,4] 1129642113600,
xp 18 18 [1,1,4,4] 365067502800,
xp 18 18 [1,2,2,5] 640059900480,
xp 18 18 [1,1,3,5] 764734370400,
xp 18 18 [1,1,2,6] 894935321280,
xp 18 18 [1,1,1,7] 428948039520,
xm 18 18 [4,4,4] 32351241384000,
xm 18 18 [3,4,5] 204537175920000,
xm 18 18 [2,5,5] 116989189833600,
xm 18 18 [3,3,6] 111841249608000,
xm 18 18 [2,4,6] 242831178374400,
xm 18 18 [1,5,6] 332527042108800,
xm 18 18 [2,3,7] 273407207673600,
xm 18 18 [1,4,7] 355288466332800,
xm 18 18 [2,2,8] 171220109860800,
xm 18 18 [1,3,8] 409884563088000,
xm 18 18 [1,2,9] 524303735155200,
xm 18 18 [1,1,10] 408648715675200,
xp 18 18 [7,7] 47277292484822400,
xp 18 18 [6,8] 96963050280096000,
xp 18 18 [5,9] 104691592605600000,
xp 18 18 [4,10] 119574270912096000,
xp 18 18 [3,11] 146442257017056000,
xp 18 18 [2,12] 197856318986726400,
xp 18 18 [1,13] 324980276100480000,
xm 19 18 [1,1,1,1,1,2] 3513510,
xp 19 18 [1,2,2,2,2] 3641077440,
xp 19 18 [1,1,2,2,3] 26162136000,
xp 19 18 [1,1,1,3,3] 10440144000,
xp 19 18 [1,1,1,2,4] 22908085200,
xp 19 18 [1,1,1,1,5] 7954046100,
xm 19 18 [2,3,3,3] 2713201920000,
xm 19 18 [2,2,3,4] 8826607389600,
xm 19 18 [1,3,3,4] 10455429348000,
xm 19 18 [1,2,4,4] 11349023868000,
xm 19 18 [2,2,2,5] 3342119901120,
xm 19 18 [1,2,3,5] 23778562953600,
xm 19 18 [1,1,4,5] 15346598904000,
xm 19 18 [1,2,2,6] 13949123348160,
xm 19 18 [1,1,3,6] 16591832056800,
xm 19 18 [1,1,2,7] 19957130313120,
xm 19 18 [1,1,1,8] 9756595648800,
xp 19 18 [4,4,5] 2305243748808000,
xp 19 18 [3,5,5] 2425780532448000,
xp 19 18 [3,4,6] 5029842321504000,
xp 19 18 [2,5,6] 5756823908035200,
xp 19 18 [1,6,6] 4064552449372800,
xp 19 18 [3,3,7] 2820972283272000,
xp 19 18 [2,4,7] 6136521171580800,
xp 19 18 [1,5,7] 8358209328268800,
xp 19 18 [2,3,8] 7042962902976000,
xp 19 18 [1,4,8] 9116342883648000,
xp 19 18 [2,2,9] 4483653073099200,
xp 19 18 [1,3,9] 10671968138832000,
xp 19 18 [1,2,10] 13824106824528000,
xp 19 18 [1,1,11] 10834310073787200,
xm 19 18 [7,8] 2678838428185920000,
xm 19 18 [6,9] 2799979373423232000,
xm 19 18 [5,10] 3065308697715264000,
xm 19 18 [4,11] 3536155488273408000,
xm 19 18 [3,12] 4357453506325920000,
xm 19 18 [2,13] 5921348802969600000,
xm 19 18 [1,14] 9711243339557760000,
xp 19 19 [1,1,1,1,1,2] 540540,
xm 19 19 [1,2,2,2,2] 596756160,
xm 19 19 [1,1,2,2,3] 4324320000,
xm 19 19 [1,1,1,3,3] 1741311000,
xm 19 19 [1,1,1,2,4] 3827023200,
xm 19 19 [1,1,1,1,5] 1345944600,
xp 19 19 [2,3,3,3] 464014980000,
xp 19 19 [2,2,3,4] 1508625518400,
xp 19 19 [1,3,3,4] 1801167732000,
xp 19 19 [1,2,4,4] 1953393624000,
xp 19 19 [2,2,2,5] 571173482880,
xp 19 19 [1,2,3,5] 4095079934400,
xp 19 19 [1,1,4,5] 2659433212800,
xp 19 19 [1,2,2,6] 2401917598080,
xp 19 19 [1,1,3,6] 2877402528000,
xp 19 19 [1,1,2,7] 3458811676320,
xp 19 19 [1,1,1,8] 1699133436000,
xm 19 19 [4,4,5] 403717217904000,
xm 19 19 [3,5,5] 424905009984000,
xm 19 19 [3,4,6] 880464416832000,
xm 19 19 [2,5,6] 1006549652908800,
xm 19 19 [1,6,6] 714518304192000,
xm 19 19 [3,3,7] 493259460408000,
xm 19 19 [2,4,7] 1071562085193600,
xm 19 19 [1,5,7] 1468389882960000,
xm 19 19 [2,3,8] 1227907899504000,
xm 19 19 [1,4,8] 1598729212080000,
xm 19 19 [2,2,9] 779330890166400,
xm 19 19 [1,3,9] 1868294718576000,
xm 19 19 [1,2,10] 2413880594611200,
xm 19 19 [1,1,11] 1899447614064000,
xp 19 19 [7,8] 472736193209280000,
xp 19 19 [6,9] 493930348879968000,
xp 19 19 [5,10] 540365818984992000,
xp 19 19 [4,11] 622533584600928000,
xp 19 19 [3,12] 766132327056096000,
xp 19 19 [2,13] 1038259939036320000,
xp 19 19 [1,14] 1709615989841760000]
/-- row 6 -/
def extA6 : PL := extA6_0 ++ extA6_1 ++ extA6_2
def extA7_0 : PL := [
xm 13 13 [1,1,1,2] 69189120,
xp 13 13 [2,2,3] 8172964800,
xp 13 13 [1,3,3] 10100376000,
xp 13 13 [1,2,4] 22572950400,
xp 13 13 [1,1,5] 16735118400,
xm 13 13 [4,5] 2288430144000,
xm 13 13 [3,6] 2568646080000,
xm 13 13 [2,7] 3339239904000,
xm 13 13 [1,8] 5565399840000,
xp 13 13 [11] 1372731167808000,
xp 14 13 [1,1,2,2] 1024863840,
xp 14 13 [1,1,1,3] 843242400,
xm 14 13 [2,3,3] 112030776000,
xm 14 13 [2,2,4] 124929604800,
xm 14 13 [1,3,4] 308756448000,
xm 14 13 [1,2,5] 368950982400,
xm 14 13 [1,1,6] 286832145600,
xp 14 13 [5,5] 20595871296000,
xp 14 13 [4,6] 43153254144000,
xp 14 13 [3,7] 50088598560000,
xp 14 13 [2,8] 66784798080000,
xp 14 13 [1,9] 113534156736000,
xm 14 13 [12] 31572816859584000,
xp 15 13 [1,1,1,1,1] 5405400,
xm 15 13 [1,2,2,2] 3476753280,
xm 15 13 [1,1,2,3] 12834581760,
xm 15 13 [1,1,1,4] 5881075200,
xp 15 13 [3,3,3] 264926376000,
xp 15 13 [2,3,4] 1770030662400,
xp 15 13 [1,4,4] 1214917704000,
xp 15 13 [2,2,5] 1054312459200,
xp 15 13 [1,3,5] 2599521724800,
xp 15 13 [1,2,6] 3250504857600,
xp 15 13 [1,1,7] 2607175771200,
xm 15 13 [5,6] 401456030976000,
xm 15 13 [4,7] 434871781344000,
xm 15 13 [3,8] 517582185120000,
xm 15 13 [2,9] 703466539776000,
xm 15 13 [1,10] 1211031005184000,
xp 15 13 [13] 378873802315008000,
xm 16 13 [1,1,1,1,2] 81081000,
xp 16 13 [2,2,2,2] 3074591520,
xp 16 13 [1,2,2,3] 45119954880,
xp 16 13 [1,1,3,3] 27610783200,
xp 16 13 [1,1,2,4] 61470208800,
xp 16 13 [1,1,1,5] 29967537600,
xm 16 13 [3,3,4] 4337323848000,
xm 16 13 [2,4,4] 4823995176000,
xm 16 13 [2,3,5] 10308832934400,
xm 16 13 [1,4,5] 14070472416000,
xm 16 13 [2,2,6] 6418112500800,
xm 16 13 [1,3,6] 15752027491200,
xm 16 13 [1,2,7] 20343676953600,
xm 16 13 [1,1,8] 16640545521600,
xp 16 13 [6,6] 1348539192000000,
xp 16 13 [5,7] 2788779049056000,
xp 16 13 [4,8] 3097701550944000,
xp 16 13 [3,9] 3758871051936000,
xp 16 13 [2,10] 5184726490944000,
xp 16 13 [1,11] 8988120741600000,
xm 16 13 [14] 3157281685958400000,
xp 17 13 [1,1,1,2,2] 378378000,
xp 17 13 [1,1,1,1,3] 229729500,
xm 17 13 [2,2,2,3] 41682120480,
xm 17 13 [1,2,3,3] 151731740160,
xm 17 13 [1,2,2,4] 168531723360,
xm 17 13 [1,1,3,4] 204626822400,
xm 17 13 [1,1,2,5] 243156513600,
xm 17 13 [1,1,1,6] 122897174400,
xp 17 13 [3,4,4] 18400197816000,
xp 17 13 [3,3,5] 19641302366400,
xp 17 13 [2,4,5] 43638961766400,
xp 17 13 [1,5,5] 31550238720000,
xp 17 13 [2,3,6] 48750567465600,
xp 17 13 [1,4,6] 66035220451200,
xp 17 13 [2,2,7] 31319968680000,
xp 17 13 [1,3,7] 76369739846400,
xp 17 13 [1,2,8] 100999163865600,
xp 17 13 [1,1,9] 83536651598400,
xm 17 13 [6,7] 14528262228480000,
xm 17 13 [5,8] 15404684270976000,
xm 17 13 [4,9] 17447528498400000,
xm 17 13 [3,10] 21496913421984000,
xm 17 13 [2,11] 29991939737760000,
xm 17 13 [1,12] 52131100301280000,
xp 17 13 [15] 20522330958729600000,
xp 18 13 [1,1,1,1,1,1] 270270,
xm 18 13 [1,1,2,2,2] 745945200,
xm 18 13 [1,1,1,2,3] 1783782000,
xm 18 13 [1,1,1,1,4] 591891300,
xp 18 13 [2,2,3,3] 176419283040,
xp 18 13 [1,3,3,3] 141340399200,
xp 18 13 [2,2,2,4] 130352302080,
xp 18 13 [1,2,3,4] 940107168000,
xp 18 13 [1,1,4,4] 313232119200,
xp 18 13 [1,2,2,5] 556358362560,
xp 18 13 [1,1,3,5] 668777709600,
xp 18 13 [1,1,2,6] 829828359360,
xp 18 13 [1,1,1,7] 427809301920,
xm 18 13 [4,4,4] 21588951384000,
xm 18 13 [3,4,5] 138159429408000,
xm 18 13 [2,5,5] 81744437174400,
xm 18 13 [3,3,6] 77042647281600,
xm 18 13 [2,4,6] 170950402022400,
xm 18 13 [1,5,6] 244749160656000,
xm 18 13 [2,3,7] 197164602835200,
xm 18 13 [1,4,7] 264628146182400,
xm 18 13 [2,2,8] 129626724427200,
xm 18 13 [1,3,8] 313563189139200,
xm 18 13 [1,2,9] 422079923865600,
xm 18 13 [1,1,10] 350787151915200,
xp 18 13 [7,7] 32354152294464000,
xp 18 13 [6,8] 66357118507680000,
xp 18 13 [5,9] 71749134737280000,
xp 18 13 [4,10] 82531540387296000,
xp 18 13 [3,11] 102937635440640000,
xp 18 13 [2,12] 144888506354592000,
xp 18 13 [1,13] 251667380764800000,
xm 19 13 [1,1,1,1,1,2] 2162160,
xp 19 13 [1,2,2,2,2] 654053400,
xp 19 13 [1,1,2,2,3] 4621617000,
xp 19 13 [1,1,1,3,3] 1810809000,
xp 19 13 [1,1,1,2,4] 4010806800,
xp 19 13 [1,1,1,1,5] 1389187800,
xm 19 13 [2,3,3,3] 288155387520,
xm 19 13 [2,2,3,4] 956055260160,
xm 19 13 [1,3,3,4] 1136906971200,
xm 19 13 [1,2,4,4] 1257685228800,
xm 19 13 [2,2,2,5] 375800705280,
xm 19 13 [1,2,3,5] 2681640561600,
xm 19 13 [1,1,4,5] 1763327966400,
xm 19 13 [1,2,2,6] 1655064290880,
xm 19 13 [1,1,3,6] 1967003438400,
xm 19 13 [1,1,2,7] 2514458026080,
xm 19 13 [1,1,1,8] 1308128421600,
xp 19 13 [4,4,5] 210025087272000,
xp 19 13 [3,5,5] 223851668040000,
xp 19 13 [3,4,6] 467822061907200,
xp 19 13 [2,5,6] 552359317910400,
xp 19 13 [1,6,6] 408669256195200,
xp 19 13 [3,3,7] 269188530811200,
xp 19 13 [2,4,7] 596394473875200,
xp 19 13 [1,5,7] 844496106854400,
xp 19 13 [2,3,8] 704467533369600,
xp 19 13 [1,4,8] 935720404819200,
xp 19 13 [2,2,9] 471205280145600,
xp 19 13 [1,3,9] 1129630610908800,
xp 19 13 [1,2,10] 1540725291705600,
xp 19 13 [1,1,11] 1280709811180800,
xm 19 13 [7,8] 254436381239040000,
xm 19 13 [6,9] 266082108836544000,
xm 19 13 [5,10] 292225788638784000,
xm 19 13 [4,11] 340384306534272000,
xm 19 13 [3,12] 428780665272960000,
xm 19 13 [2,13] 607596962132160000,
xm 19 13 [1,14] 1051969651596864000,
xm 14 14 [1,1,2,2] 1049883120,
xm 14 14 [1,1,1,3] 883396800,
xp 14 14 [2,3,3] 112030776000,
xp 14 14 [2,2,4] 123372849600,
xp 14 14 [1,3,4] 313945632000,
xp 14 14 [1,2,5] 373621248000,
xp 14 14 [1,1,6] 295394299200,
xm 14 14 [5,5] 20618161200000,
xm 14 14 [4,6] 43098767712000,
xm 14 14 [3,7] 50189787648000,
xm 14 14 [2,8] 66481230816000,
xm 14 14 [1,9] 115254371232000,
xp 14 14 [12] 31572816859584000,
xm 15 14 [1,1,1,1,1] 11711700,
xp 15 14 [1,2,2,2] 7468718400,
xp 15 14 [1,1,2,3] 27586072800,
xp 15 14 [1,1,1,4] 12648636000,
xm 15 14 [3,3,3] 560153880000,
xm 15 14 [2,3,4] 3743996256000,
xm 15 14 [1,4,4] 2577510936000,
xm 15 14 [2,2,5] 2231219390400,
xm 15 14 [1,3,5] 5514805296000,
xm 15 14 [1,2,6] 6901095801600,
xm 15 14 [1,1,7] 5546848507200,
xp 15 14 [5,6] 841488455808000,
xp 15 14 [4,7] 911612493792000,
xp 15 14 [3,8] 1085252968800000,
xp 15 14 [2,9] 1475944037568000,
xp 15 14 [1,10] 2549357883072000,
xm 15 14 [13] 789320421489600000,
xp 16 14 [1,1,1,1,2] 272251980,
xm 16 14 [2,2,2,2] 10618367760,
xm 16 14 [1,2,2,3] 153531275040,
xm 16 14 [1,1,3,3] 92765930400,
xm 16 14 [1,1,2,4] 207063885600,
xm 16 14 [1,1,1,5] 99848548800,
xp 16 14 [3,3,4] 14490610992000,
xp 16 14 [2,4,4] 16163443296000,
xp 16 14 [2,3,5] 34521046560000,
xp 16 14 [1,4,5] 46759737024000,
xp 16 14 [2,2,6] 21558724387200,
xp 16 14 [1,3,6] 52349007110400,
xp 16 14 [1,2,7] 67772299795200,
xp 16 14 [1,1,8] 54986150419200,
xm 16 14 [6,6] 4434242052240000,
xm 16 14 [5,7] 9169467154848000,
xm 16 14 [4,8] 10189134027072000,
xm 16 14 [3,9] 12365205364512000,
xm 16 14 [2,10] 17100652304736000,
xm 16 14 [1,11] 29448351957024000,
xp 16 14 [14] 10261165479364800000,
xm 17 14 [1,1,1,2,2] 1794592800,
xm 17 14 [1,1,1,1,3] 1065764700,
xp 17 14 [2,2,2,3] 202257712800,
xp 17 14 [1,2,3,3] 723140589600,
xp 17 14 [1,2,2,4] 803767536000,
xp 17 14 [1,1,3,4] 958763520000,
xp 17 14 [1,1,2,5] 1140193454400,
xp 17 14 [1,1,1,6] 566334568800,
xm 17 14 [3,4,4] 86184994896000,
xm 17 14 [3,3,5] 92031475536000,
xm 17 14 [2,4,5] 204705525024000,
xm 17 14 [1,5,5] 145955529720000,
xm 17 14 [2,3,6] 228808765785600,
xm 17 14 [1,4,6] 305524883664000,
xm 17 14 [2,2,7] 147260479766400,
xm 17 14 [1,3,7] 353551300502400,
xm 17 14 [1,2,8] 468272742537600,
xm 17 14 [1,1,9] 381786429024000,
xp 17 14 [6,7] 66477588008832000,
xp 17 14 [5,8] 70498032853248000,
xp 17 14 [4,9] 79874618503680000,
xp 17 14 [3,10] 98485720324992000,
xp 17 14 [2,11] 137665325685888000,
xp 17 14 [1,12] 236338549390944000,
xm 17 14 [15] 92350489314283200000,
xm 18 14 [1,1,1,1,1,1] 1576575,
xp 18 14 [1,1,2,2,2] 4722157440,
xp 18 14 [1,1,1,2,3] 11085394320,
xp 18 14 [1,1,1,1,4] 3585582000,
xm 18 14 [2,2,3,3] 1124549917920,
xm 18 14 [1,3,3,3] 886201430400,
xm 18 14 [2,2,2,4] 827973226080,
xm 18 14 [1,2,3,4] 5877158601600,
xm 18 14 [1,1,4,4] 1919173370400,
xm 18 14 [1,2,2,5] 3470303865600,
xm 18 14 [1,1,3,5] 4101132578400,
xm 18 14 [1,1,2,6] 5076448977600,
xm 18 14 [1,1,1,7] 2564365003200,
xp 18 14 [4,4,4] 132457597272000,
xp 18 14 [3,4,5] 848408232672000,
xp 18 14 [2,5,5] 501498957960000,
xp 18 14 [3,3,6] 473564542651200,
xp 18 14 [2,4,6] 1048855253846400,
xp 18 14 [1,5,6] 1477053225648000,
xp 18 14 [2,3,7] 1211137642915200,
xp 18 14 [1,4,7] 1597435289049600,
xp 18 14 [2,2,8] 795591031435200,
xp 18 14 [1,3,8] 1894924461830400,
xp 18 14 [1,2,9] 2548396586736000,
xp 18 14 [1,1,10] 2081366783496000,
xm 18 14 [7,7] 192799422335520000,
xm 18 14 [6,8] 395445632662080000,
xm 18 14 [5,9] 427689846904320000,
xm 18 14 [4,10] 492175426526784000,
xm 18 14 [3,11] 614622318133824000,
xm 18 14 [2,12] 865016740171584000,
xm 18 14 [1,13] 1479804198897024000,
xp 19 14 [1,1,1,1,1,2] 16576560,
xm 19 14 [1,2,2,2,2] 5278373100,
xm 19 14 [1,1,2,2,3] 36940503600,
xm 19 14 [1,1,1,3,3] 14308093800,
xm 19 14 [1,1,1,2,4] 31357085760,
xm 19 14 [1,1,1,1,5] 10608998400,
xp 19 14 [2,3,3,3] 2318796136800,
xp 19 14 [2,2,3,4] 7643630966400,
xp 19 14 [1,3,3,4] 8981921520000,
xp 19 14 [1,2,4,4] 9872666575200,
xp 19 14 [2,2,2,5] 2985969523680,
xp 19 14 [1,2,3,5] 21061118707200,
xp 19 14 [1,1,4,5] 13577737773600,
xp 19 14 [1,2,2,6] 12920601133440,
xp 19 14 [1,1,3,6] 15157022680800,
xp 19 14 [1,1,2,7] 19256919121440,
xp 19 14 [1,1,1,8] 9813655051200,
xm 19 14 [4,4,5] 1617909517224000,
xm 19 14 [3,5,5] 1725501625848000,
xm 19 14 [3,4,6] 3607087419936000,
xm 19 14 [2,5,6] 4242180492950400,
xm 19 14 [1,6,6] 3086190513806400,
xm 19 14 [3,3,7] 2077781316811200,
xm 19 14 [2,4,7] 4582287136627200,
xm 19 14 [1,5,7] 6378320021673600,
xm 19 14 [2,3,8] 5418695900217600,
xm 19 14 [1,4,8] 7070840496720000,
xm 19 14 [2,2,9] 3610998378187200,
xm 19 14 [1,3,9] 8545671454320000,
xm 19 14 [1,2,10] 11610722659536000,
xm 19 14 [1,1,11] 9477263733537600,
xp 19 14 [7,8] 1892507537112192000,
xp 19 14 [6,9] 1979414594853696000,
xp 19 14 [5,10] 2174618059758144000,
xp 19 14 [4,11] 2534598442696320000,
xp 19 14 [3,12] 3196894785372288000,
xp 19 14 [2,13] 4518802215895968000,
xp 19 14 [1,14] 7698505177595232000,
xp 15 15 [1,1,1,1,1] 6306300,
xm 15 15 [1,2,2,2] 4021617600,
xm 15 15 [1,1,2,3] 14854039200,
xm 15 15 [1,1,1,4] 6810804000,
xp 15 15 [3,3,3] 301621320000,
xp 15 15 [2,3,4] 2015997984000,
xp 15 15 [1,4,4] 1387890504000,
xp 15 15 [2,2,5] 1201425825600,
xp 15 15 [1,3,5] 2969510544000,
xp 15 15 [1,2,6] 3715974662400,
xp 15 15 [1,1,7] 2986764580800,
xm 15 15 [5,6] 453109168512000,
xm 15 15 [4,7] 490868265888000,
xm 15 15 [3,8] 584366983200000,
xm 15 15 [2,9] 794739097152000,
xm 15 15 [1,10] 1372731167808000,
xp 15 15 [13] 425018688494400000,
xm 16 15 [1,1,1,1,2] 302161860,
xp 16 15 [2,2,2,2] 12064852800,
xp 16 15 [1,2,2,3] 173967393600,
xp 16 15 [1,1,3,3] 104571324000,
xp 16 15 [1,1,2,4] 232994361600,
xp 16 15 [1,1,1,5] 111502591200,
xm 16 15 [3,3,4] 16414037640000,
xm 16 15 [2,4,4] 18275657400000,
xm 16 15 [2,3,5] 39066771744000,
xm 16 15 [1,4,5] 52633893312000,
xm 16 15 [2,2,6] 24363608068800,
xm 16 15 [1,3,6] 58950427536000,
xm 16 15 [1,2,7] 76245977808000,
xm 16 15 [1,1,8] 61497668232000,
xp 16 15 [6,6] 4984200853632000,
xp 16 15 [5,7] 10308233583648000,
xp 16 15 [4,8] 11453592870720000,
xp 16 15 [3,9] 13907934200160000,
xp 16 15 [2,10] 19218236349312000,
xp 16 15 [1,11] 32945548027392000,
xm 16 15 [14] 11475504589348800000,
xp 17 15 [1,1,1,2,2] 3145942800,
xp 17 15 [1,1,1,1,3] 1848646800,
xm 17 15 [2,2,2,3] 363307744800,
xm 17 15 [1,2,3,3] 1291884422400,
xm 17 15 [1,2,2,4] 1431241812000,
xm 17 15 [1,1,3,4] 1696214520000,
xm 17 15 [1,1,2,5] 2010225016800,
xm 17 15 [1,1,1,6] 987177391200,
xp 17 15 [3,4,4] 153465576264000,
xp 17 15 [3,3,5] 163908809064000,
xp 17 15 [2,4,5] 363669690384000,
xp 17 15 [1,5,5] 257353039944000,
xp 17 15 [2,3,6] 406612004198400,
xp 17 15 [1,4,6] 538761839616000,
xp 17 15 [2,2,7] 261115717262400,
xp 17 15 [1,3,7] 623633019609600,
xp 17 15 [1,2,8] 824013100310400,
xp 17 15 [1,1,9] 665900090856000,
xm 17 15 [6,7] 116788888183968000,
xm 17 15 [5,8] 123862425759072000,
xm 17 15 [4,9] 140364949364640000,
xm 17 15 [3,10] 173144749665888000,
xm 17 15 [2,11] 241600685534208000,
xm 17 15 [1,12] 411819350342400000,
xp 17 15 [15] 160657064250883200000,
xp 18 15 [1,1,1,1,1,1] 3603600,
xm 18 15 [1,1,2,2,2] 11688636960,
xm 18 15 [1,1,1,2,3] 27241053840,
xm 18 15 [1,1,1,1,4] 8688279600,
xp 18 15 [2,2,3,3] 2830597941600,
xp 18 15 [1,3,3,3] 2219024808000,
xp 18 15 [2,2,2,4] 2077619544000,
xp 18 15 [1,2,3,4] 14659704259200,
xp 18 15 [1,1,4,4] 4741292556000,
xp 18 15 [1,2,2,5] 8613721116000,
xp 18 15 [1,1,3,5] 10121308797600,
xp 18 15 [1,1,2,6] 12460463215200,
xp 18 15 [1,1,1,7] 6218264052000,
xm 18 15 [4,4,4] 329014806120000,
xm 18 15 [3,4,5] 2106091299312000,
xm 18 15 [2,5,5] 1240615191816000,
xm 18 15 [3,3,6] 1175173095096000,
xm 18 15 [2,4,6] 2595379458672000,
xm 18 15 [1,5,6] 3622666647600000,
xm 18 15 [2,3,7] 2995811923104000,
xm 18 15 [1,4,7] 3918883432464000,
xm 18 15 [2,2,8] 1961636481604800,
xm 18 15 [1,3,8] 4647108866400000,
xm 18 15 [1,2,9] 6226012801008000,
xm 18 15 [1,1,10] 5034924478584000,
xp 18 15 [7,7] 469760930454816000,
xp 18 15 [6,8] 963574405938144000,
xp 18 15 [5,9] 1042276951235520000,
xp 18 15 [4,10] 1199875414177440000,
xp 18 15 [3,11] 1498336069662432000,
xp 18 15 [2,12] 2103024149081856000,
xp 18 15 [1,13] 3567728305132992000,
xm 19 15 [1,1,1,1,1,2] 51351300,
xp 19 15 [1,2,2,2,2] 17281604340,
xp 19 15 [1,1,2,2,3] 120378258000]
def extA7_1 : PL := [
xp 19 15 [1,1,1,3,3] 46502656200,
xp 19 15 [1,1,1,2,4] 101234493360,
xp 19 15 [1,1,1,1,5] 33826993200,
xm 19 15 [2,3,3,3] 7657178443200,
xm 19 15 [2,2,3,4] 25154439710400,
xm 19 15 [1,3,3,4] 29435553576000,
xm 19 15 [1,2,4,4] 32227686691200,
xm 19 15 [2,2,2,5] 9773892928800,
xm 19 15 [1,2,3,5] 68618655705600,
xm 19 15 [1,1,4,5] 43891675027200,
xm 19 15 [1,2,2,6] 41836044650400,
xm 19 15 [1,1,3,6] 48889378137600,
xm 19 15 [1,1,2,7] 61678057240800,
xm 19 15 [1,1,1,8] 31087039183200,
xp 19 15 [4,4,5] 5242920594912000,
xp 19 15 [3,5,5] 5584832036784000,
xp 19 15 [3,4,6] 11675730162096000,
xp 19 15 [2,5,6] 13672552813920000,
xp 19 15 [1,6,6] 9860041815624000,
xp 19 15 [3,3,7] 6718517994988800,
xp 19 15 [2,4,7] 14771174418000000,
xp 19 15 [1,5,7] 20379996052416000,
xp 19 15 [2,3,8] 17449018313126400,
xp 19 15 [1,4,8] 22597107348816000,
xp 19 15 [2,2,9] 11577923903145600,
xp 19 15 [1,3,9] 27278250775776000,
xp 19 15 [1,2,10] 36878008959792000,
xp 19 15 [1,1,11] 29812177322928000,
xm 19 15 [7,8] 5986629370770048000,
xm 19 15 [6,9] 6262170090688512000,
xm 19 15 [5,10] 6881293097078400000,
xm 19 15 [4,11] 8023216306289184000,
xm 19 15 [3,12] 10113596878825440000,
xm 19 15 [2,13] 14243458597175808000,
xm 19 15 [1,14] 24058486447003008000,
xp 16 16 [1,1,1,1,2] 110990880,
xm 16 16 [2,2,2,2] 4518296640,
xm 16 16 [1,2,2,3] 65624644800,
xm 16 16 [1,1,3,3] 39443976000,
xm 16 16 [1,1,2,4] 87437750400,
xm 16 16 [1,1,1,5] 41643201600,
xp 16 16 [3,3,4] 6263974080000,
xp 16 16 [2,4,4] 6931334592000,
xp 16 16 [2,3,5] 14862766464000,
xp 16 16 [1,4,5] 19955242944000,
xp 16 16 [2,2,6] 9219104294400,
xp 16 16 [1,3,6] 22370572224000,
xp 16 16 [1,2,7] 28838890080000,
xp 16 16 [1,1,8] 23172301152000,
xm 16 16 [6,6] 1898189935488000,
xm 16 16 [5,7] 3928253801472000,
xm 16 16 [4,8] 4361094017280000,
xm 16 16 [3,9] 5303553615360000,
xm 16 16 [2,10] 7301119617792000,
xm 16 16 [1,11] 12495373450560000,
xp 16 16 [14] 4371620795942400000,
xm 17 16 [1,1,1,2,2] 2422700280,
xm 17 16 [1,1,1,1,3] 1419818400,
xp 17 16 [2,2,2,3] 287239867200,
xp 17 16 [1,2,3,3] 1023612876000,
xp 17 16 [1,2,2,4] 1127934007200,
xp 17 16 [1,1,3,4] 1337512176000,
xp 17 16 [1,1,2,5] 1575825451200,
xp 17 16 [1,1,1,6] 768453285600,
xm 17 16 [3,4,4] 122352310080000,
xm 17 16 [3,3,5] 130689599040000,
xm 17 16 [2,4,5] 288669116736000,
xm 17 16 [1,5,5] 203651707896000,
xm 17 16 [2,3,6] 322793190720000,
xm 17 16 [1,4,6] 426383573616000,
xm 17 16 [2,2,7] 206365026067200,
xm 17 16 [1,3,7] 493566641568000,
xm 17 16 [1,2,8] 649178594064000,
xm 17 16 [1,1,9] 522085099536000,
xp 17 16 [6,7] 92563730138880000,
xp 17 16 [5,8] 98173653177600000,
xp 17 16 [4,9] 111263473601280000,
xp 17 16 [3,10] 137273116780800000,
xp 17 16 [2,11] 190809632325312000,
xp 17 16 [1,12] 324228542365728000,
xm 17 16 [15] 126777003082329600000,
xm 18 16 [1,1,1,1,1,1] 4054050,
xp 18 16 [1,1,2,2,2] 14213885400,
xp 18 16 [1,1,1,2,3] 33123982320,
xp 18 16 [1,1,1,1,4] 10497286800,
xm 18 16 [2,2,3,3] 3525930064800,
xm 18 16 [1,3,3,3] 2767456692000,
xm 18 16 [2,2,2,4] 2580090084000,
xm 18 16 [1,2,3,4] 18209760940800,
xm 18 16 [1,1,4,4] 5871021156000,
xm 18 16 [1,2,2,5] 10635297472800,
xm 18 16 [1,1,3,5] 12507187492800,
xm 18 16 [1,1,2,6] 15294536056800,
xm 18 16 [1,1,1,7] 7581073500000,
xp 18 16 [4,4,4] 410904748800000,
xp 18 16 [3,4,5] 2626733176704000,
xp 18 16 [2,5,5] 1540441643832000,
xp 18 16 [3,3,6] 1464032029824000,
xp 18 16 [2,4,6] 3223413189360000,
xp 18 16 [1,5,6] 4481667537984000,
xp 18 16 [2,3,7] 3716049905568000,
xp 18 16 [1,4,7] 4848899367312000,
xp 18 16 [2,2,8] 2422800690710400,
xp 18 16 [1,3,8] 5742834905808000,
xp 18 16 [1,2,9] 7655409858096000,
xp 18 16 [1,1,10] 6160088110176000,
xm 18 16 [7,7] 580058849994624000,
xm 18 16 [6,8] 1189881676279296000,
xm 18 16 [5,9] 1287137342050560000,
xm 18 16 [4,10] 1482136809753600000,
xm 18 16 [3,11] 1849264987489920000,
xm 18 16 [2,12] 2585574352801440000,
xm 18 16 [1,13] 4369596897425760000,
xp 19 16 [1,1,1,1,1,2] 82882800,
xm 19 16 [1,2,2,2,2] 29518580520,
xm 19 16 [1,1,2,2,3] 205604582040,
xm 19 16 [1,1,1,3,3] 79612275600,
xm 19 16 [1,1,1,2,4] 172590818400,
xm 19 16 [1,1,1,1,5] 57354897600,
xp 19 16 [2,3,3,3] 13322673936000,
xp 19 16 [2,2,3,4] 43676184895200,
xp 19 16 [1,3,3,4] 51134589792000,
xp 19 16 [1,2,4,4] 55845241452000,
xp 19 16 [2,2,2,5] 16889561488800,
xp 19 16 [1,2,3,5] 118577913854400,
xp 19 16 [1,1,4,5] 75758194512000,
xp 19 16 [1,2,2,6] 71860598409600,
xp 19 16 [1,1,3,6] 84084305104800,
xp 19 16 [1,1,2,7] 105349451407200,
xp 19 16 [1,1,1,8] 52815644481600,
xm 19 16 [4,4,5] 9092090367360000,
xm 19 16 [3,5,5] 9666855217656000,
xm 19 16 [3,4,6] 20205736767216000,
xm 19 16 [2,5,6] 23567452324416000,
xm 19 16 [1,6,6] 16930255718376000,
xm 19 16 [3,3,7] 11603103640128000,
xm 19 16 [2,4,7] 25457380380432000,
xm 19 16 [1,5,7] 34995990517488000,
xm 19 16 [2,3,8] 30009445449984000,
xm 19 16 [1,4,8] 38796773311296000,
xm 19 16 [2,2,9] 19825067310048000,
xm 19 16 [1,3,9] 46725478031232000,
xm 19 16 [1,2,10] 62848896718608000,
xm 19 16 [1,1,11] 50578606718640000,
xp 19 16 [7,8] 10223149750894080000,
xp 19 16 [6,9] 10694383286146560000,
xp 19 16 [5,10] 11753468756789760000,
xp 19 16 [4,11] 13704432825283200000,
xp 19 16 [3,12] 17247715956158688000,
xp 19 16 [2,13] 24197325885244512000,
xp 19 16 [1,14] 40710718662213600000,
xp 17 17 [1,1,1,2,2] 692972280,
xp 17 17 [1,1,1,1,3] 407206800,
xm 17 17 [2,2,2,3] 84537367200,
xm 17 17 [1,2,3,3] 303196608000,
xm 17 17 [1,2,2,4] 331965073440,
xm 17 17 [1,1,3,4] 395502307200,
xm 17 17 [1,1,2,5] 462706564320,
xm 17 17 [1,1,1,6] 224756532000,
xp 17 17 [3,4,4] 36705693024000,
xp 17 17 [3,3,5] 39206879712000,
xp 17 17 [2,4,5] 86143048992000,
xp 17 17 [1,5,5] 60749647358400,
xp 17 17 [2,3,6] 96324228000000,
xp 17 17 [1,4,6] 127202207932800,
xp 17 17 [2,2,7] 61241659839360,
xp 17 17 [1,3,7] 147223377100800,
xp 17 17 [1,2,8] 192562834464000,
xp 17 17 [1,1,9] 154532602224000,
xm 17 17 [6,7] 27769119041664000,
xm 17 17 [5,8] 29452095953280000,
xm 17 17 [4,9] 33379042080384000,
xm 17 17 [3,10] 41181935034240000,
xm 17 17 [2,11] 56968343464032000,
xm 17 17 [1,12] 96742349095392000,
xp 17 17 [15] 38033100924698880000,
xp 18 17 [1,1,1,1,1,1] 2252250,
xm 18 17 [1,1,2,2,2] 8521844760,
xm 18 17 [1,1,1,2,3] 19947470400,
xm 18 17 [1,1,1,1,4] 6313507200,
xp 18 17 [2,2,3,3] 2177650332000,
xp 18 17 [1,3,3,3] 1717063920000,
xp 18 17 [2,2,2,4] 1587656790720,
xp 18 17 [1,2,3,4] 11254172529600,
xp 18 17 [1,1,4,4] 3630461234400,
xp 18 17 [1,2,2,5] 6532183738080,
xp 18 17 [1,1,3,5] 7715862554400,
xp 18 17 [1,1,2,6] 9368708469120,
xp 18 17 [1,1,1,7] 4628557533600,
xm 18 17 [4,4,4] 256939851168000,
xm 18 17 [3,4,5] 1640314035360000,
xm 18 17 [2,5,5] 957536383003200,
xm 18 17 [3,3,6] 912896816832000,
xm 18 17 [2,4,6] 2003449758710400,
xm 18 17 [1,5,6] 2783384892288000,
xm 18 17 [2,3,7] 2306301693696000,
xm 18 17 [1,4,7] 3011437853424000,
xm 18 17 [2,2,8] 1496313400982400,
xm 18 17 [1,3,8] 3560742817632000,
xm 18 17 [1,2,9] 4721128684272000,
xm 18 17 [1,1,10] 3791352749184000,
xp 18 17 [7,7] 360998547541632000,
xp 18 17 [6,8] 740509841111040000,
xp 18 17 [5,9] 801097009929216000,
xp 18 17 [4,10] 922475344766976000,
xp 18 17 [3,11] 1149662353039200000,
xp 18 17 [2,12] 1600498946958912000,
xp 18 17 [1,13] 2701904519714400000,
xm 19 17 [1,1,1,1,1,2] 73873800,
xp 19 17 [1,2,2,2,2] 27850628520,
xp 19 17 [1,1,2,2,3] 194690307240,
xp 19 17 [1,1,1,3,3] 75769036200,
xp 19 17 [1,1,1,2,4] 163830466800,
xp 19 17 [1,1,1,1,5] 54390936600,
xm 19 17 [2,3,3,3] 12908512188000,
xm 19 17 [2,2,3,4] 42241881464640,
xm 19 17 [1,3,3,4] 49623341882400,
xm 19 17 [1,2,4,4] 54091751313600,
xm 19 17 [2,2,2,5] 16262721034560,
xm 19 17 [1,2,3,5] 114551288691840,
xm 19 17 [1,1,4,5] 73348359084000,
xm 19 17 [1,2,2,6] 69020843411520,
xm 19 17 [1,1,3,6] 81091183773600,
xm 19 17 [1,1,2,7] 100950216887520,
xm 19 17 [1,1,1,8] 50506003548000,
xp 19 17 [4,4,5] 8865959566464000,
xp 19 17 [3,5,5] 9409681487606400,
xp 19 17 [3,4,6] 19658664189964800,
xp 19 17 [2,5,6] 22847686557696000,
xp 19 17 [1,6,6] 16397607256430400,
xp 19 17 [3,3,7] 11263110639580800,
xp 19 17 [2,4,7] 24668018315740800,
xp 19 17 [1,5,7] 33896022060700800,
xp 19 17 [2,3,8] 29010203205984000,
xp 19 17 [1,4,8] 37558026614908800,
xp 19 17 [2,2,9] 19080862043443200,
xp 19 17 [1,3,9] 45113687643024000,
xp 19 17 [1,2,10] 60386696370000000,
xp 19 17 [1,1,11] 48522233639880000,
xm 19 17 [7,8] 9885806378832384000,
xm 19 17 [6,9] 10341893121880320000,
xm 19 17 [5,10] 11367081057556224000,
xm 19 17 [4,11] 13250287597266720000,
xm 19 17 [3,12] 16644840585845472000,
xm 19 17 [2,13] 23262284770556832000,
xm 19 17 [1,14] 39091599848901600000,
xm 18 18 [1,1,1,1,1,1] 495495,
xp 18 18 [1,1,2,2,2] 2020384080,
xp 18 18 [1,1,1,2,3] 4762929600,
xp 18 18 [1,1,1,1,4] 1510809300,
xm 18 18 [2,2,3,3] 534205854000,
xm 18 18 [1,3,3,3] 423790380000,
xm 18 18 [2,2,2,4] 387575435520,
xm 18 18 [1,2,3,4] 2767144161600,
xm 18 18 [1,1,4,4] 894804346800,
xm 18 18 [1,2,2,5] 1596700123200,
xm 18 18 [1,1,3,5] 1897678692000,
xm 18 18 [1,1,2,6] 2288015009280,
xm 18 18 [1,1,1,7] 1129214005920,
xp 18 18 [4,4,4] 64178952264000,
xp 18 18 [3,4,5] 409436388144000,
xp 18 18 [2,5,5] 237961528358400,
xp 18 18 [3,3,6] 227525909688000,
xp 18 18 [2,4,6] 497497169030400,
xp 18 18 [1,5,6] 692100490435200,
xp 18 18 [2,3,7] 572112206265600,
xp 18 18 [1,4,7] 748638127036800,
xp 18 18 [2,2,8] 369180992980800,
xp 18 18 [1,3,8] 883695981168000,
xp 18 18 [1,2,9] 1165458553459200,
xp 18 18 [1,1,10] 935644513003200,
xm 18 18 [7,7] 90256649289206400,
xm 18 18 [6,8] 185111277807456000,
xm 18 18 [5,9] 200299261754592000,
xm 18 18 [4,10] 230566038839136000,
xm 18 18 [3,11] 287059206129696000,
xm 18 18 [2,12] 397817492430758400,
xm 18 18 [1,13] 671934307524480000,
xp 19 18 [1,1,1,1,1,2] 34594560,
xm 19 18 [1,2,2,2,2] 13804712064,
xm 19 18 [1,1,2,2,3] 97108165440,
xm 19 18 [1,1,1,3,3] 38037027600,
xm 19 18 [1,1,1,2,4] 82105863840,
xm 19 18 [1,1,1,1,5] 27316188900,
xp 19 18 [2,3,3,3] 6613429680000,
xp 19 18 [2,2,3,4] 21593945973600,
xp 19 18 [1,3,3,4] 25499620692000,
xp 19 18 [1,2,4,4] 27743968324800,
xp 19 18 [2,2,2,5] 8278279289280,
xp 19 18 [1,2,3,5] 58633875518400,
xp 19 18 [1,1,4,5] 37683559368000,
xp 19 18 [1,2,2,6] 35134719459840,
xp 19 18 [1,1,3,6] 41507958492000,
xp 19 18 [1,1,2,7] 51370832953440,
xp 19 18 [1,1,1,8] 25696125655200,
xm 19 18 [4,4,5] 4598886428136000,
xm 19 18 [3,5,5] 4874735135088000,
xm 19 18 [3,4,6] 10176648850368000,
xm 19 18 [2,5,6] 11788929616464000,
xm 19 18 [1,6,6] 8467290865756800,
xm 19 18 [3,3,7] 5818397857272000,
xm 19 18 [2,4,7] 12718163022364800,
xm 19 18 [1,5,7] 17502763729651200,
xm 19 18 [2,3,8] 14924580967296000,
xm 19 18 [1,4,8] 19377936081504000,
xm 19 18 [2,2,9] 9772452541051200,
xm 19 18 [1,3,9] 23217801214608000,
xm 19 18 [1,2,10] 30935225972851200,
xm 19 18 [1,1,11] 24859633475476800,
xp 19 18 [7,8] 5114146090173120000,
xp 19 18 [6,9] 5350183602027264000,
xp 19 18 [5,10] 5880780322889472000,
xp 19 18 [4,11] 6851301258529728000,
xp 19 18 [3,12] 8591449203136800000,
xp 19 18 [2,13] 11961240233342400000,
xp 19 18 [1,14] 20109455661335040000,
xm 19 19 [1,1,1,1,1,2] 6666660,
xp 19 19 [1,2,2,2,2] 2815379424,
xp 19 19 [1,1,2,2,3] 19963068840,
xp 19 19 [1,1,1,3,3] 7874895600,
xp 19 19 [1,1,1,2,4] 16978001040,
xp 19 19 [1,1,1,1,5] 5672967300,
xm 19 19 [2,3,3,3] 1401079680000,
xm 19 19 [2,2,3,4] 4561422465600,
xm 19 19 [1,3,3,4] 5420377872000,
xm 19 19 [1,2,4,4] 5884773148800,
xm 19 19 [2,2,2,5] 1741425285600,
xm 19 19 [1,2,3,5] 12421373328000,
xm 19 19 [1,1,4,5] 8016192475200,
xm 19 19 [1,2,2,6] 7403992596000,
xm 19 19 [1,1,3,6] 8801764171200,
xm 19 19 [1,1,2,7] 10834540516800,
xm 19 19 [1,1,1,8] 5424297278400,
xp 19 19 [4,4,5] 990032091048000,
xp 19 19 [3,5,5] 1048780848024000,
xp 19 19 [3,4,6] 2187366893712000,
xp 19 19 [2,5,6] 2526083614454400,
xp 19 19 [1,6,6] 1817485051536000,
xp 19 19 [3,3,7] 1248529994712000,
xp 19 19 [2,4,7] 2722370985734400,
xp 19 19 [1,5,7] 3756703270320000,
xp 19 19 [2,3,8] 3189176486496000,
xp 19 19 [1,4,8] 4154844710016000,
xp 19 19 [2,2,9] 2078621186241600,
xp 19 19 [1,3,9] 4967560437840000,
xp 19 19 [1,2,10] 6589612437408000,
xp 19 19 [1,1,11] 5300560883217600,
xm 19 19 [7,8] 1103051117488320000,
xm 19 19 [6,9] 1153961169064704000,
xm 19 19 [5,10] 1268403599054592000,
xm 19 19 [4,11] 1476601159505472000,
xm 19 19 [3,12] 1849033684802304000,
xm 19 19 [2,13] 2564279420582880000,
xm 19 19 [1,14] 4316975535993120000]
/-- row 7 -/
def extA7 : PL := extA7_0 ++ extA7_1
def extA8_0 : PL := [
xm 15 15 [1,1,1,1,1] 900900,
xp 15 15 [1,2,2,2] 574516800,
xp 15 15 [1,1,2,3] 2122005600,
xp 15 15 [1,1,1,4] 972972000,
xm 15 15 [3,3,3] 43088760000,
xm 15 15 [2,3,4] 287999712000,
xm 15 15 [1,4,4] 198270072000,
xm 15 15 [2,2,5] 171632260800,
xm 15 15 [1,3,5] 424215792000,
xm 15 15 [1,2,6] 530853523200,
xm 15 15 [1,1,7] 426680654400,
xp 15 15 [5,6] 64729881216000,
xp 15 15 [4,7] 70124037984000,
xp 15 15 [3,8] 83480997600000,
xp 15 15 [2,9] 113534156736000,
xp 15 15 [1,10] 196104452544000,
xm 15 15 [13] 60716955499200000,
xp 16 15 [1,1,1,1,2] 48108060,
xm 16 15 [2,2,2,2] 1723550400,
xm 16 15 [1,2,2,3] 25436268000,
xm 16 15 [1,1,3,3] 15660216000,
xm 16 15 [1,1,2,4] 34897262400,
xm 16 15 [1,1,1,5] 17124307200,
xp 16 15 [3,3,4] 2344862520000,
xp 16 15 [2,4,4] 2610808200000,
xp 16 15 [2,3,5] 5580967392000,
xp 16 15 [1,4,5] 7682586912000,
xp 16 15 [2,2,6] 3480515438400,
xp 16 15 [1,3,6] 8604964368000,
xp 16 15 [1,2,7] 11130799680000,
xp 16 15 [1,1,8] 9182909736000,
xm 16 15 [6,6] 712028693376000,
xm 16 15 [5,7] 1472604797664000,
xm 16 15 [4,8] 1636227552960000,
xm 16 15 [3,9] 1986847742880000,
xm 16 15 [2,10] 2745462335616000,
xm 16 15 [1,11] 4804559087328000,
xp 16 15 [14] 1639357798478400000,
xm 17 15 [1,1,1,2,2] 527567040,
xm 17 15 [1,1,1,1,3] 324324000,
xp 17 15 [2,2,2,3] 52484889600,
xp 17 15 [1,2,3,3] 193278571200,
xp 17 15 [1,2,2,4] 214999012800,
xp 17 15 [1,1,3,4] 264370392000,
xp 17 15 [1,1,2,5] 314724009600,
xp 17 15 [1,1,1,6] 161513352000,
xm 17 15 [3,4,4] 21923653752000,
xm 17 15 [3,3,5] 23415544152000,
xm 17 15 [2,4,5] 52116272208000,
xm 17 15 [1,5,5] 38235853656000,
xm 17 15 [2,3,6] 58270903891200,
xm 17 15 [1,4,6] 80048352384000,
xm 17 15 [2,2,7] 37540762459200,
xm 17 15 [1,3,7] 92668188412800,
xm 17 15 [1,2,8] 122884028467200,
xm 17 15 [1,1,9] 103238167032000,
xp 17 15 [6,7] 16684126883424000,
xp 17 15 [5,8] 17694632251296000,
xp 17 15 [4,9] 20052135623520000,
xp 17 15 [3,10] 24734964237984000,
xp 17 15 [2,11] 34612435874016000,
xp 17 15 [1,12] 61086536967456000,
xm 17 15 [15] 22951009178697600000,
xm 18 15 [1,1,1,1,1,1] 900900,
xp 18 15 [1,1,2,2,2] 1991349360,
xp 18 15 [1,1,1,2,3] 4873508640,
xp 18 15 [1,1,1,1,4] 1661259600,
xm 18 15 [2,2,3,3] 412957116000,
xm 18 15 [1,3,3,3] 336648312000,
xm 18 15 [2,2,2,4] 305726335200,
xm 18 15 [1,2,3,4] 2244340612800,
xm 18 15 [1,1,4,4] 764107344000,
xm 18 15 [1,2,2,5] 1332193262400,
xm 18 15 [1,1,3,5] 1632776745600,
xm 18 15 [1,1,2,6] 2032733102400,
xm 18 15 [1,1,1,7] 1074550276800,
xp 18 15 [4,4,4] 47002115160000,
xp 18 15 [3,4,5] 301033644912000,
xp 18 15 [2,5,5] 178701875352000,
xp 18 15 [3,3,6] 168065345448000,
xp 18 15 [2,4,6] 373850869392000,
xp 18 15 [1,5,6] 546199237584000,
xp 18 15 [2,3,7] 431789406048000,
xp 18 15 [1,4,7] 590902760448000,
xp 18 15 [2,2,8] 285004125806400,
xp 18 15 [1,3,8] 701240379840000,
xp 18 15 [1,2,9] 947787592752000,
xp 18 15 [1,1,10] 805777140168000,
xm 18 15 [7,7] 67108704350688000,
xm 18 15 [6,8] 137653486562592000,
xm 18 15 [5,9] 148896707319360000,
xm 18 15 [4,10] 171410773453920000,
xm 18 15 [3,11] 214146062178048000,
xm 18 15 [2,12] 302687222501664000,
xm 18 15 [1,13] 536737886612928000,
xp 19 15 [1,1,1,1,1,2] 13513500,
xm 19 15 [1,2,2,2,2] 2936753820,
xm 19 15 [1,1,2,2,3] 21409708320,
xm 19 15 [1,1,1,3,3] 8675667000,
xm 19 15 [1,1,1,2,4] 19277818560,
xm 19 15 [1,1,1,1,5] 6972966000,
xp 19 15 [2,3,3,3] 1120808145600,
xp 19 15 [2,2,3,4] 3729429475200,
xp 19 15 [1,3,3,4] 4537663416000,
xp 19 15 [1,2,4,4] 5036918515200,
xp 19 15 [2,2,2,5] 1471578451200,
xp 19 15 [1,2,3,5] 10751044075200,
xp 19 15 [1,1,4,5] 7276468399200,
xp 19 15 [1,2,2,6] 6667193332800,
xp 19 15 [1,1,3,6] 8129829708000,
xp 19 15 [1,1,2,7] 10450497657600,
xp 19 15 [1,1,1,8] 5629615992000,
xm 19 15 [4,4,5] 749152115712000,
xm 19 15 [3,5,5] 799304281776000,
xm 19 15 [3,4,6] 1671227301744000,
xm 19 15 [2,5,6] 1981897261344000,
xm 19 15 [1,6,6] 1504901630232000,
xm 19 15 [3,3,7] 963366042038400,
xm 19 15 [2,4,7] 2141468561232000,
xm 19 15 [1,5,7] 3110626510992000,
xm 19 15 [2,3,8] 2534457400675200,
xm 19 15 [1,4,8] 3449820117744000,
xm 19 15 [2,2,9] 1704236739004800,
xm 19 15 [1,3,9] 4173493340016000,
xm 19 15 [1,2,10] 5725126815408000,
xm 19 15 [1,1,11] 4900891099104000,
xp 19 15 [7,8] 855232767252864000,
xp 19 15 [6,9] 894595727241216000,
xp 19 15 [5,10] 983041871011200000,
xp 19 15 [4,11] 1146271810267584000,
xp 19 15 [3,12] 1447054755322176000,
xp 19 15 [2,13] 2061842214047616000,
xp 19 15 [1,14] 3662446755711744000,
xm 16 16 [1,1,1,1,2] 50270220,
xp 16 16 [2,2,2,2] 1694361240,
xp 16 16 [1,2,2,3] 25630862400,
xp 16 16 [1,1,3,3] 16054038000,
xp 16 16 [1,1,2,4] 35610775200,
xp 16 16 [1,1,1,5] 17708090400,
xm 16 16 [3,3,4] 2348990280000,
xm 16 16 [2,4,4] 2599250472000,
xm 16 16 [2,3,5] 5573537424000,
xm 16 16 [1,4,5] 7769269872000,
xm 16 16 [2,2,6] 3457164110400,
xm 16 16 [1,3,6] 8710045344000,
xm 16 16 [1,2,7] 11231988768000,
xm 16 16 [1,1,8] 9385287912000,
xp 16 16 [6,6] 711821225808000,
xp 16 16 [5,7] 1473095175552000,
xp 16 16 [4,8] 1635410256480000,
xp 16 16 [3,9] 1988832605760000,
xp 16 16 [2,10] 2737919856672000,
xp 16 16 [1,11] 4857356439936000,
xm 16 16 [14] 1639357798478400000,
xp 17 16 [1,1,1,2,2] 1128184200,
xp 17 16 [1,1,1,1,3] 693049500,
xm 17 16 [2,2,2,3] 110779812000,
xm 17 16 [1,2,3,3] 408648240000,
xm 17 16 [1,2,2,4] 454767112800,
xm 17 16 [1,1,3,4] 559783224000,
xm 17 16 [1,1,2,5] 666680414400,
xm 17 16 [1,1,1,6] 342486144000,
xp 17 16 [3,4,4] 45882116280000,
xp 17 16 [3,3,5] 49008599640000,
xp 17 16 [2,4,5] 109109080080000,
xp 17 16 [1,5,5] 80232509448000,
xp 17 16 [2,3,6] 122010688800000,
xp 17 16 [1,4,6] 167981669856000,
xp 17 16 [2,2,7] 78639099739200,
xp 17 16 [1,3,7] 194485427136000,
xp 17 16 [1,2,8] 258032174400000,
xp 17 16 [1,1,9] 217177080120000,
xm 17 16 [6,7] 34711398802080000,
xm 17 16 [5,8] 36815119941600000,
xm 17 16 [4,9] 41723802600480000,
xm 17 16 [3,10] 51477418792800000,
xm 17 16 [2,11] 72068386309920000,
xm 17 16 [1,12] 127505606548320000,
xp 17 16 [15] 47541376155873600000,
xp 18 16 [1,1,1,1,1,1] 2927925,
xm 18 16 [1,1,2,2,2] 6681537720,
xm 18 16 [1,1,1,2,3] 16173265680,
xm 18 16 [1,1,1,1,4] 5462156700,
xp 18 16 [2,2,3,3] 1377366962400,
xp 18 16 [1,3,3,3] 1113496956000,
xp 18 16 [2,2,2,4] 1022093186400,
xp 18 16 [1,2,3,4] 7436248934400,
xp 18 16 [1,1,4,4] 2514592080000,
xp 18 16 [1,2,2,5] 4421184768000,
xp 18 16 [1,1,3,5] 5372362195200,
xp 18 16 [1,1,2,6] 6699106814400,
xp 18 16 [1,1,1,7] 3515477565600,
xm 18 16 [4,4,4] 154089280800000,
xm 18 16 [3,4,5] 986741263872000,
xm 18 16 [2,5,5] 586677703248000,
xm 18 16 [3,3,6] 550938495744000,
xm 18 16 [2,4,6] 1227656089296000,
xm 18 16 [1,5,6] 1783400359104000,
xm 18 16 [2,3,7] 1417943230704000,
xm 18 16 [1,4,7] 1929672016272000,
xm 18 16 [2,2,8] 937749635222400,
xm 18 16 [1,3,8] 2290263223248000,
xm 18 16 [1,2,9] 3100737223584000,
xm 18 16 [1,1,10] 2620746784656000,
xp 18 16 [7,7] 217522068747984000,
xp 18 16 [6,8] 446205628604736000,
xp 18 16 [5,9] 482676503268960000,
xp 18 16 [4,10] 555801303657600000,
xp 18 16 [3,11] 694503918684576000,
xp 18 16 [2,12] 983403489676608000,
xp 18 16 [1,13] 1735290588167136000,
xm 19 16 [1,1,1,1,1,2] 60990930,
xp 19 16 [1,2,2,2,2] 13888017000,
xp 19 16 [1,1,2,2,3] 99708780600,
xp 19 16 [1,1,1,3,3] 39791466000,
xp 19 16 [1,1,1,2,4] 88429255200,
xp 19 16 [1,1,1,1,5] 31494563100,
xm 19 16 [2,3,3,3] 5221384740000,
xm 19 16 [2,2,3,4] 17387954812800,
xm 19 16 [1,3,3,4] 20887114248000,
xm 19 16 [1,2,4,4] 23200084908000,
xm 19 16 [2,2,2,5] 6868403942400,
xm 19 16 [1,2,3,5] 49532447764800,
xm 19 16 [1,1,4,5] 33111534456000,
xm 19 16 [1,2,2,6] 30747666549600,
xm 19 16 [1,1,3,6] 37006017048000,
xm 19 16 [1,1,2,7] 47609141580000,
xm 19 16 [1,1,1,8] 25322569272000,
xp 19 16 [4,4,5] 3412394425440000,
xp 19 16 [3,5,5] 3641806245168000,
xp 19 16 [3,4,6] 7615420708896000,
xp 19 16 [2,5,6] 9040933661760000,
xp 19 16 [1,6,6] 6794553421656000,
xp 19 16 [3,3,7] 4391867175696000,
xp 19 16 [2,4,7] 9770744391408000,
xp 19 16 [1,5,7] 14045185522368000,
xp 19 16 [2,3,8] 11569707349200000,
xp 19 16 [1,4,8] 15579780312096000,
xp 19 16 [2,2,9] 7790446696032000,
xp 19 16 [1,3,9] 18857092494240000,
xp 19 16 [1,2,10] 25898689344528000,
xp 19 16 [1,1,11] 21931014609504000,
xm 19 16 [7,8] 3833681156585280000,
xm 19 16 [6,9] 4010393732304960000,
xm 19 16 [5,10] 4407550783796160000,
xm 19 16 [4,11] 5140878223440960000,
xm 19 16 [3,12] 6493546397257920000,
xm 19 16 [2,13] 9265407409177920000,
xm 19 16 [1,14] 16302502551535200000,
xm 17 17 [1,1,1,2,2] 601698240,
xm 17 17 [1,1,1,1,3] 369626400,
xp 17 17 [2,2,2,3] 59082566400,
xp 17 17 [1,2,3,3] 217945728000,
xp 17 17 [1,2,2,4] 242542460160,
xp 17 17 [1,1,3,4] 298551052800,
xp 17 17 [1,1,2,5] 355562887680,
xp 17 17 [1,1,1,6] 182659276800,
xm 17 17 [3,4,4] 24470462016000,
xm 17 17 [3,3,5] 26137919808000,
xm 17 17 [2,4,5] 58191509376000,
xm 17 17 [1,5,5] 42790671705600,
xm 17 17 [2,3,6] 65072367360000,
xm 17 17 [1,4,6] 89590223923200,
xm 17 17 [2,2,7] 41940853194240,
xm 17 17 [1,3,7] 103725561139200,
xm 17 17 [1,2,8] 137617159680000,
xm 17 17 [1,1,9] 115827776064000,
xp 17 17 [6,7] 18512746027776000,
xp 17 17 [5,8] 19634730635520000,
xp 17 17 [4,9] 22252694720256000,
xp 17 17 [3,10] 27454623356160000,
xp 17 17 [2,11] 38436472698624000,
xp 17 17 [1,12] 68002990159104000,
xm 17 17 [15] 25355400616465920000,
xm 18 17 [1,1,1,1,1,1] 3153150,
xp 18 17 [1,1,2,2,2] 7426092960,
xp 18 17 [1,1,1,2,3] 17879518800,
xp 18 17 [1,1,1,1,4] 5992786800,
xm 18 17 [2,2,3,3] 1540075680000,
xm 18 17 [1,3,3,3] 1240539300000,
xm 18 17 [2,2,2,4] 1141205345280,
xm 18 17 [1,2,3,4] 8275970102400,
xm 18 17 [1,1,4,4] 2783802621600,
xm 18 17 [1,2,2,5] 4916972380320,
xm 18 17 [1,1,3,5] 5949529185600,
xm 18 17 [1,1,2,6] 7413112586880,
xm 18 17 [1,1,1,7] 3867952888800,
xp 18 17 [4,4,4] 171293234112000,
xp 18 17 [3,4,5] 1097356740480000,
xp 18 17 [2,5,5] 652095599500800,
xp 18 17 [3,3,6] 612878954688000,
xp 18 17 [2,4,6] 1364383846425600,
xp 18 17 [1,5,6] 1974261377088000,
xp 18 17 [2,3,7] 1576525991040000,
xp 18 17 [1,4,7] 2136185971920000,
xp 18 17 [2,2,8] 1041964276953600,
xp 18 17 [1,3,8] 2536152707088000,
xp 18 17 [1,2,9] 3431827919520000,
xp 18 17 [1,1,10] 2887093329120000,
xm 18 17 [7,7] 240665698361088000,
xm 18 17 [6,8] 493673227407360000,
xm 18 17 [5,9] 534064673286144000,
xm 18 17 [4,10] 614983563177984000,
xm 18 17 [3,11] 768729453972480000,
xm 18 17 [2,12] 1088047842545664000,
xm 18 17 [1,13] 1912584098224800000,
xp 19 17 [1,1,1,1,1,2] 102342240,
xm 19 17 [1,2,2,2,2] 24289087680,
xm 19 17 [1,1,2,2,3] 173224228320,
xm 19 17 [1,1,1,3,3] 68623869600,
xm 19 17 [1,1,1,2,4] 152072434800,
xm 19 17 [1,1,1,1,5] 53549496000,
xp 19 17 [2,3,3,3] 9158863428000,
xp 19 17 [2,2,3,4] 30442592568960,
xp 19 17 [1,3,3,4] 36378579837600,
xp 19 17 [1,2,4,4] 40326532646400,
xp 19 17 [2,2,2,5] 12003737185440,
xp 19 17 [1,2,3,5] 86107321460160,
xp 19 17 [1,1,4,5] 57102213168000,
xp 19 17 [1,2,2,6] 53353153133280,
xp 19 17 [1,1,3,6] 63827352388800,
xp 19 17 [1,1,2,7] 81950227238880,
xp 19 17 [1,1,1,8] 43196778424800,
xm 19 17 [4,4,5] 5922081861696000,
xm 19 17 [3,5,5] 6321192884697600,
xm 19 17 [3,4,6] 13219273959091200,
xm 19 17 [2,5,6] 15671278598976000,
xm 19 17 [1,6,6] 11701331779737600,
xm 19 17 [3,3,7] 7625681282419200,
xm 19 17 [2,4,7] 16938140294275200,
xm 19 17 [1,5,7] 24188857367875200,
xm 19 17 [2,3,8] 20062507505040000,
xm 19 17 [1,4,8] 26834948127187200,
xm 19 17 [2,2,9] 13491197060140800,
xm 19 17 [1,3,9] 32488426322352000,
xm 19 17 [1,2,10] 44555275660896000,
xm 19 17 [1,1,11] 37450503090000000,
xp 19 17 [7,8] 6590537585888256000,
xp 19 17 [6,9] 6894595414586880000,
xp 19 17 [5,10] 7578054038370816000,
xp 19 17 [4,11] 8840388720683520000,
xp 19 17 [3,12] 11170230296569344000,
xp 19 17 [2,13] 15921200071000224000,
xp 19 17 [1,14] 27838724096383200000,
xp 18 18 [1,1,1,1,1,1] 1126125,
xm 18 18 [1,1,2,2,2] 2737510776,
xm 18 18 [1,1,1,2,3] 6582541680,
xm 18 18 [1,1,1,1,4] 2191889700,
xp 18 18 [2,2,3,3] 575988051600,
xp 18 18 [1,3,3,3] 464052888000,
xp 18 18 [2,2,2,4] 424587290400,
xp 18 18 [1,2,3,4] 3085500600000,
xp 18 18 [1,1,4,4] 1033593397200,
xp 18 18 [1,2,2,5] 1828929080160,
xp 18 18 [1,1,3,5] 2211364864800,
xp 18 18 [1,1,2,6] 2748230765280,
xp 18 18 [1,1,1,7] 1427890464000,
xm 18 18 [4,4,4] 64178952264000,
xm 18 18 [3,4,5] 411724818288000,
xm 18 18 [2,5,5] 244146976718400,
xm 18 18 [3,3,6] 230094555768000,
xm 18 18 [2,4,6] 510426799344000,
xm 18 18 [1,5,6] 737411407286400,
xm 18 18 [2,3,7] 590508382464000,
xm 18 18 [1,4,7] 797724953625600,
xm 18 18 [2,2,8] 389125362225600,
xm 18 18 [1,3,8] 947698079328000,
xm 18 18 [1,2,9] 1279508774544000,
xm 18 18 [1,1,10] 1072917629784000,
xp 18 18 [7,7] 90256649289206400,
xp 18 18 [6,8] 185111277807456000,
xp 18 18 [5,9] 200299261754592000,
xp 18 18 [4,10] 230566038839136000,
xp 18 18 [3,11] 288431937297504000,
xp 18 18 [2,12] 407289337488633600,
xp 18 18 [1,13] 714436176373920000,
xm 19 18 [1,1,1,1,1,2] 75765690,
xp 19 18 [1,2,2,2,2] 18684212976,
xp 19 18 [1,1,2,2,3] 133117859160,
xp 19 18 [1,1,1,3,3] 52634696400,
xp 19 18 [1,1,1,2,4] 116099343360,
xp 19 18 [1,1,1,1,5] 40548608100,
xm 19 18 [2,3,3,3] 7152039180000,
xm 19 18 [2,2,3,4] 23689143878400,
xm 19 18 [1,3,3,4] 28304600688000,
xm 19 18 [1,2,4,4] 31265731879200,
xm 19 18 [2,2,2,5] 9308072854080,
xm 19 18 [1,2,3,5] 66758368622400,
xm 19 18 [1,1,4,5] 44061856675200,
xm 19 18 [1,2,2,6] 41217156620640,
xm 19 18 [1,1,3,6] 49251453451200,
xm 19 18 [1,1,2,7] 62997459164640,
xm 19 18 [1,1,1,8] 33004507536000,
xp 19 18 [4,4,5] 4614905439144000,
xp 19 18 [3,5,5] 4926258248184000,
xp 19 18 [3,4,6] 10302430778640000,
xp 19 18 [2,5,6] 12177308903760000,
xp 19 18 [1,6,6] 9060620447894400,
xp 19 18 [3,3,7] 5943771137304000,
xp 19 18 [2,4,7] 13162281929596800]
def extA8_1 : PL := [
xp 19 18 [1,5,7] 18729999778089600,
xp 19 18 [2,3,8] 15591973597200000,
xp 19 18 [1,4,8] 20780307868320000,
xp 19 18 [2,2,9] 10453657481467200,
xp 19 18 [1,3,9] 25160188028976000,
xp 19 18 [1,2,10] 34398732303936000,
xp 19 18 [1,1,11] 28778956950744000,
xm 19 18 [7,8] 5114146090173120000,
xm 19 18 [6,9] 5350183602027264000,
xm 19 18 [5,10] 5880780322889472000,
xm 19 18 [4,11] 6860910376704384000,
xm 19 18 [3,12] 8670381245285760000,
xm 19 18 [2,13] 12325541966337600000,
xm 19 18 [1,14] 21475587160067040000,
xp 19 19 [1,1,1,1,1,2] 20900880,
xm 19 19 [1,2,2,2,2] 5346712800,
xm 19 19 [1,1,2,2,3] 38193784200,
xm 19 19 [1,1,1,3,3] 15127398000,
xm 19 19 [1,1,1,2,4] 33178345200,
xm 19 19 [1,1,1,1,5] 11521610100,
xp 19 19 [2,3,3,3] 2094669720000,
xp 19 19 [2,2,3,4] 6908101200000,
xp 19 19 [1,3,3,4] 8278419240000,
xp 19 19 [1,2,4,4] 9105150600000,
xp 19 19 [2,2,2,5] 2702332432800,
xp 19 19 [1,2,3,5] 19438919136000,
xp 19 19 [1,1,4,5] 12798532656000,
xp 19 19 [1,2,2,6] 11947901565600,
xp 19 19 [1,1,3,6] 14304634344000,
xp 19 19 [1,1,2,7] 18210662870400,
xp 19 19 [1,1,1,8] 9503341848000,
xm 19 19 [4,4,5] 1357325129160000,
xm 19 19 [3,5,5] 1448899484760000,
xm 19 19 [3,4,6] 3030126699600000,
xm 19 19 [2,5,6] 3568234702032000,
xm 19 19 [1,6,6] 2650951428048000,
xm 19 19 [3,3,7] 1748167981560000,
xm 19 19 [2,4,7] 3856822089120000,
xm 19 19 [1,5,7] 5479891168752000,
xm 19 19 [2,3,8] 4568687323200000,
xm 19 19 [1,4,8] 6079868514720000,
xm 19 19 [2,2,9] 3051230462280000,
xm 19 19 [1,3,9] 7360863990480000,
xm 19 19 [1,2,10] 10023954516576000,
xm 19 19 [1,1,11] 8363980608984000,
xp 19 19 [7,8] 1504160614756800000,
xp 19 19 [6,9] 1573583412360960000,
xp 19 19 [5,10] 1729641271438080000,
xp 19 19 [4,11] 2017914816677760000,
xp 19 19 [3,12] 2550112130966400000,
xp 19 19 [2,13] 3612658852202400000,
xp 19 19 [1,14] 6284204894167200000]
/-- row 8 -/
def extA8 : PL := extA8_0 ++ extA8_1
def extA9_0 : PL := [
xp 17 17 [1,1,1,2,2] 75212280,
xp 17 17 [1,1,1,1,3] 46203300,
xm 17 17 [2,2,2,3] 7385320800,
xm 17 17 [1,2,3,3] 27243216000,
xm 17 17 [1,2,2,4] 30317807520,
xm 17 17 [1,1,3,4] 37318881600,
xm 17 17 [1,1,2,5] 44445360960,
xm 17 17 [1,1,1,6] 22832409600,
xp 17 17 [3,4,4] 3058807752000,
xp 17 17 [3,3,5] 3267239976000,
xp 17 17 [2,4,5] 7273938672000,
xp 17 17 [1,5,5] 5348833963200,
xp 17 17 [2,3,6] 8134045920000,
xp 17 17 [1,4,6] 11198777990400,
xp 17 17 [2,2,7] 5242606649280,
xp 17 17 [1,3,7] 12965695142400,
xp 17 17 [1,2,8] 17202144960000,
xp 17 17 [1,1,9] 14478472008000,
xm 17 17 [6,7] 2314093253472000,
xm 17 17 [5,8] 2454341329440000,
xm 17 17 [4,9] 2781586840032000,
xm 17 17 [3,10] 3431827919520000,
xm 17 17 [2,11] 4804559087328000,
xm 17 17 [1,12] 8500373769888000,
xp 17 17 [15] 3169425077058240000,
xp 18 17 [1,1,1,1,1,1] 450450,
xm 18 17 [1,1,2,2,2] 964168920,
xm 18 17 [1,1,1,2,3] 2367565200,
xm 18 17 [1,1,1,1,4] 809909100,
xp 18 17 [2,2,3,3] 192509460000,
xp 18 17 [1,3,3,3] 157760460000,
xp 18 17 [2,2,2,4] 142650668160,
xp 18 17 [1,2,3,4] 1052496244800,
xp 18 17 [1,1,4,4] 360367207200,
xp 18 17 [1,2,2,5] 625348563840,
xp 18 17 [1,1,3,5] 770204635200,
xp 18 17 [1,1,2,6] 959817418560,
xp 18 17 [1,1,1,7] 510161652000,
xm 18 17 [4,4,4] 21411654264000,
xm 18 17 [3,4,5] 137169592560000,
xm 18 17 [2,5,5] 81511949937600,
xm 18 17 [3,3,6] 76609869336000,
xm 18 17 [2,4,6] 170547980803200,
xm 18 17 [1,5,6] 250828289712000,
xm 18 17 [2,3,7] 197065748880000,
xm 18 17 [1,4,7] 271405998864000,
xm 18 17 [2,2,8] 130245534619200,
xm 18 17 [1,3,8] 322236650736000,
xm 18 17 [1,2,9] 436074374736000,
xm 18 17 [1,1,10] 373143194424000,
xp 18 17 [7,7] 30083212295136000,
xp 18 17 [6,8] 61709153425920000,
xp 18 17 [5,9] 66758084160768000,
xp 18 17 [4,10] 76872945397248000,
xp 18 17 [3,11] 96091181746560000,
xp 18 17 [2,12] 136005980318208000,
xp 18 17 [1,13] 242867821996800000,
xm 19 17 [1,1,1,1,1,2] 15855840,
xp 19 17 [1,2,2,2,2] 3179765160,
xp 19 17 [1,1,2,2,3] 23375420640,
xp 19 17 [1,1,1,3,3] 9556747200,
xp 19 17 [1,1,1,2,4] 21250944000,
xp 19 17 [1,1,1,1,5] 7763956200,
xm 19 17 [2,3,3,3] 1147550976000,
xm 19 17 [2,2,3,4] 3823324053120,
xm 19 17 [1,3,3,4] 4693876387200,
xm 19 17 [1,2,4,4] 5216383972800,
xm 19 17 [2,2,2,5] 1511194164480,
xm 19 17 [1,2,3,5] 11138739131520,
xm 19 17 [1,1,4,5] 7617938328000,
xm 19 17 [1,2,2,6] 6919854701760,
xm 19 17 [1,1,3,6] 8516229321600,
xm 19 17 [1,1,2,7] 10966120925760,
xm 19 17 [1,1,1,8] 5973529161600,
xp 19 17 [4,4,5] 740260232712000,
xp 19 17 [3,5,5] 790149110587200,
xp 19 17 [3,4,6] 1652409244886400,
xp 19 17 [2,5,6] 1962955442448000,
xp 19 17 [1,6,6] 1507168265803200,
xp 19 17 [3,3,7] 953210160302400,
xp 19 17 [2,4,7] 2121650289158400,
xp 19 17 [1,5,7] 3115644970838400,
xp 19 17 [2,3,8] 2513031000480000,
xp 19 17 [1,4,8] 3456632737958400,
xp 19 17 [2,2,9] 1693495517313600,
xp 19 17 [1,3,9] 4185231274224000,
xp 19 17 [1,2,10] 5753257381872000,
xp 19 17 [1,1,11] 4981597829208000,
xm 19 17 [7,8] 823817198236032000,
xm 19 17 [6,9] 861824426823360000,
xm 19 17 [5,10] 947256754796352000,
xm 19 17 [4,11] 1105048590085440000,
xm 19 17 [3,12] 1396278787071168000,
xm 19 17 [2,13] 1993944818593728000,
xm 19 17 [1,14] 3582300374452800000,
xm 18 18 [1,1,1,1,1,1] 475475,
xp 18 18 [1,1,2,2,2] 976338792,
xp 18 18 [1,1,1,2,3] 2429958960,
xp 18 18 [1,1,1,1,4] 838737900,
xm 18 18 [2,2,3,3] 191996017200,
xm 18 18 [1,3,3,3] 159471936000,
xm 18 18 [2,2,2,4] 141529096800,
xm 18 18 [1,2,3,4] 1060500168000,
xm 18 18 [1,1,4,4] 366561140400,
xm 18 18 [1,2,2,5] 628713277920,
xm 18 18 [1,1,3,5] 784256709600,
xm 18 18 [1,1,2,6] 975060646560,
xm 18 18 [1,1,1,7] 523372449600,
xp 18 18 [4,4,4] 21392984088000,
xp 18 18 [3,4,5] 137241606096000,
xp 18 18 [2,5,5] 81382325572800,
xp 18 18 [3,3,6] 76698185256000,
xp 18 18 [2,4,6] 170142266448000,
xp 18 18 [1,5,6] 252996011452800,
xp 18 18 [2,3,7] 196836127488000,
xp 18 18 [1,4,7] 273699877651200,
xp 18 18 [2,2,8] 129708454075200,
xp 18 18 [1,3,8] 325175026176000,
xp 18 18 [1,2,9] 439117831152000,
xp 18 18 [1,1,10] 379428593544000,
xm 18 18 [7,7] 30085549763068800,
xm 18 18 [6,8] 61703759269152000,
xm 18 18 [5,9] 66766420584864000,
xm 18 18 [4,10] 76855346279712000,
xm 18 18 [3,11] 96143979099168000,
xm 18 18 [2,12] 135763112496211200,
xm 18 18 [1,13] 244891720513440000,
xp 19 18 [1,1,1,1,1,2] 33693660,
xm 19 18 [1,2,2,2,2] 6705213372,
xm 19 18 [1,1,2,2,3] 49330143720,
xm 19 18 [1,1,1,3,3] 20176813800,
xm 19 18 [1,1,1,2,4] 44879955120,
xm 19 18 [1,1,1,1,5] 16402686300,
xp 19 18 [2,3,3,3] 2398375980000,
xp 19 18 [2,2,3,4] 7992381196800,
xp 19 18 [1,3,3,4] 9825906636000,
xp 19 18 [1,2,4,4] 10922493254400,
xp 19 18 [2,2,2,5] 3159901704960,
xp 19 18 [1,2,3,5] 23323943260800,
xp 19 18 [1,1,4,5] 15972532430400,
xp 19 18 [1,2,2,6] 14494791991680,
xp 19 18 [1,1,3,6] 17857149710400,
xp 19 18 [1,1,2,7] 23002134835680,
xp 19 18 [1,1,1,8] 12543230700000,
xm 19 18 [4,4,5] 1538301813048000,
xm 19 18 [3,5,5] 1642086082728000,
xm 19 18 [3,4,6] 3434143592880000,
xm 19 18 [2,5,6] 4080679594992000,
xm 19 18 [1,6,6] 3138866738884800,
xm 19 18 [3,3,7] 1981257045768000,
xm 19 18 [2,4,7] 4410801989193600,
xm 19 18 [1,5,7] 6488794635523200,
xm 19 18 [2,3,8] 5225151531600000,
xm 19 18 [1,4,8] 7199428476240000,
xm 19 18 [2,2,9] 3522397212734400,
xm 19 18 [1,3,9] 8717980903632000,
xm 19 18 [1,2,10] 11988770281488000,
xm 19 18 [1,1,11] 10396678684392000,
xp 19 18 [7,8] 1704715363391040000,
xp 19 18 [6,9] 1783394534009088000,
xp 19 18 [5,10] 1960260107629824000,
xp 19 18 [4,11] 2286970125568128000,
xp 19 18 [3,12] 2890127081761920000,
xp 19 18 [2,13] 4128752973945600000,
xp 19 18 [1,14] 7431755353102080000,
xm 19 19 [1,1,1,1,1,2] 17837820,
xp 19 19 [1,2,2,2,2] 3549818844,
xp 19 19 [1,1,2,2,3] 26115958440,
xp 19 19 [1,1,1,3,3] 10681842600,
xp 19 19 [1,1,1,2,4] 23759976240,
xp 19 19 [1,1,1,1,5] 8683775100,
xm 19 19 [2,3,3,3] 1269728460000,
xm 19 19 [2,2,3,4] 4231260633600,
xm 19 19 [1,3,3,4] 5201950572000,
xm 19 19 [1,2,4,4] 5782496428800,
xm 19 19 [2,2,2,5] 1672889137920,
xm 19 19 [1,2,3,5] 12347969961600,
xm 19 19 [1,1,4,5] 8456046580800,
xm 19 19 [1,2,2,6] 7673713407360,
xm 19 19 [1,1,3,6] 9453785140800,
xm 19 19 [1,1,2,7] 12177600795360,
xm 19 19 [1,1,1,8] 6640533900000,
xp 19 19 [4,4,5] 814395077496000,
xp 19 19 [3,5,5] 869339690856000,
xp 19 19 [3,4,6] 1818076019760000,
xp 19 19 [2,5,6] 2160359785584000,
xp 19 19 [1,6,6] 1661752979409600,
xp 19 19 [3,3,7] 1048900788936000,
xp 19 19 [2,4,7] 2335130464867200,
xp 19 19 [1,5,7] 3435244218806400,
xp 19 19 [2,3,8] 2766256693200000,
xp 19 19 [1,4,8] 3811462134480000,
xp 19 19 [2,2,9] 1864798524388800,
xp 19 19 [1,3,9] 4615401654864000,
xp 19 19 [1,2,10] 6346996031376000,
xp 19 19 [1,1,11] 5504124009384000,
xm 19 19 [7,8] 902496368854080000,
xm 19 19 [6,9] 944150047416576000,
xm 19 19 [5,10] 1037784762862848000,
xm 19 19 [4,11] 1210748890006656000,
xm 19 19 [3,12] 1530067278579840000,
xm 19 19 [2,13] 2185810397971200000,
xm 19 19 [1,14] 3934458716348160000]
/-- row 9 -/
def extA9 : PL := extA9_0
def extA10_0 : PL := [
xp 19 19 [1,1,1,1,1,2] 1981980,
xm 19 19 [1,2,2,2,2] 394424316,
xm 19 19 [1,1,2,2,3] 2901773160,
xm 19 19 [1,1,1,3,3] 1186871400,
xm 19 19 [1,1,1,2,4] 2639997360,
xm 19 19 [1,1,1,1,5] 964863900,
xp 19 19 [2,3,3,3] 141080940000,
xp 19 19 [2,2,3,4] 470140070400,
xp 19 19 [1,3,3,4] 577994508000,
xp 19 19 [1,2,4,4] 642499603200,
xp 19 19 [2,2,2,5] 185876570880,
xp 19 19 [1,2,3,5] 1371996662400,
xp 19 19 [1,1,4,5] 939560731200,
xp 19 19 [1,2,2,6] 852634823040,
xp 19 19 [1,1,3,6] 1050420571200,
xp 19 19 [1,1,2,7] 1353066755040,
xp 19 19 [1,1,1,8] 737837100000,
xm 19 19 [4,4,5] 90488341944000,
xm 19 19 [3,5,5] 96593298984000,
xm 19 19 [3,4,6] 202008446640000,
xm 19 19 [2,5,6] 240039976176000,
xm 19 19 [1,6,6] 184639219934400,
xm 19 19 [3,3,7] 116544532104000,
xm 19 19 [2,4,7] 259458940540800,
xm 19 19 [1,5,7] 381693802089600,
xm 19 19 [2,3,8] 307361854800000,
xm 19 19 [1,4,8] 423495792720000,
xm 19 19 [2,2,9] 207199836043200,
xm 19 19 [1,3,9] 512822406096000,
xm 19 19 [1,2,10] 705221781264000,
xm 19 19 [1,1,11] 611569334376000,
xp 19 19 [7,8] 100277374317120000,
xp 19 19 [6,9] 104905560824064000,
xp 19 19 [5,10] 115309418095872000,
xp 19 19 [4,11] 134527654445184000,
xp 19 19 [3,12] 170007475397760000,
xp 19 19 [2,13] 242867821996800000,
xp 19 19 [1,14] 437162079594240000]
/-- row 10 -/
def extA10 : PL := extA10_0
/-- all rows -/
def extA : List PL := [extA0, extA1, extA2, extA3, extA4, extA5, extA6, extA7, extA8, extA9, extA10]
end Verif.PL
