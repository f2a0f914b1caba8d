import Verif.Lemmas.FormulaCheck

/-! Generated by tools/gen_ext.py (certificate, see Lemmas/ExtKernel). -/
namespace Verif.PL
set_option maxRecDepth 100000

def extC0_0 : PL := [
xm 2 1 [1] 1037836800,
xp 3 1 [2] 1037836800,
xm 4 1 [3] 1037836800,
xp 5 1 [4] 1037836800,
xm 6 1 [5] 1037836800,
xp 7 1 [6] 1037836800,
xm 8 1 [7] 1037836800,
xp 9 1 [8] 1037836800,
xm 10 1 [9] 1037836800,
xp 11 1 [10] 1037836800,
xm 12 1 [11] 1037836800,
xp 13 1 [12] 1037836800,
xm 14 1 [13] 1037836800,
xp 15 1 [14] 1037836800,
xm 16 1 [15] 1037836800,
xp 2 2 [1] 1037836800,
xm 3 2 [2] 3113510400,
xp 4 2 [3] 6227020800,
xm 5 2 [4] 10378368000,
xp 6 2 [5] 15567552000,
xm 7 2 [6] 21794572800,
xp 8 2 [7] 29059430400,
xm 9 2 [8] 37362124800,
xp 10 2 [9] 46702656000,
xm 11 2 [10] 57081024000,
xp 12 2 [11] 68497228800,
xm 13 2 [12] 80951270400,
xp 14 2 [13] 94443148800,
xm 15 2 [14] 108972864000,
xp 16 2 [15] 124540416000,
xp 3 3 [2] 2075673600,
xm 4 3 [3] 10378368000,
xp 5 3 [4] 31135104000,
xm 6 3 [5] 72648576000,
xp 7 3 [6] 145297152000,
xm 8 3 [7] 261534873600,
xp 9 3 [8] 435891456000,
xm 10 3 [9] 684972288000,
xp 11 3 [10] 1027458432000,
xm 12 3 [11] 1484106624000,
xp 13 3 [12] 2077749273600,
xm 14 3 [13] 2833294464000,
xp 15 3 [14] 3777725952000,
xm 16 3 [15] 4940103168000,
xp 4 4 [3] 5189184000,
xm 5 4 [4] 36324288000,
xp 6 4 [5] 145297152000,
xm 7 4 [6] 435891456000,
xp 8 4 [7] 1089728640000,
xm 9 4 [8] 2397403008000,
xp 10 4 [9] 4794806016000,
xm 11 4 [10] 8904639744000,
xp 12 4 [11] 15583119552000,
xm 13 4 [12] 25971865920000,
xp 14 4 [13] 41554985472000,
xm 15 4 [14] 64221341184000,
xp 16 4 [15] 96332011776000,
xp 5 5 [4] 14529715200,
xm 6 5 [5] 130767436800,
xp 7 5 [6] 653837184000,
xm 8 5 [7] 2397403008000,
xp 9 5 [8] 7192209024000,
xm 10 5 [9] 18699743462400,
xp 11 5 [10] 43632734745600,
xm 12 5 [11] 93498717312000,
xp 13 5 [12] 186997434624000,
xm 14 5 [13] 353217376512000,
xp 15 5 [14] 635791277721600,
xm 16 5 [15] 1098184934246400,
xp 6 6 [5] 43589145600,
xm 7 6 [6] 479480601600,
xp 8 6 [7] 2876883609600,
xm 9 6 [8] 12466495641600,
xp 10 6 [9] 43632734745600,
xm 11 6 [10] 130898204236800,
xp 12 6 [11] 349061877964800,
xm 13 6 [12] 847721703628800,
xp 14 6 [13] 1907373833164800,
xm 15 6 [14] 4026678092236800,
xp 16 6 [15] 8053356184473600,
xp 7 7 [6] 136994457600,
xm 8 7 [7] 1780927948800,
xp 9 7 [8] 12466495641600,
xm 10 7 [9] 62332478208000,
xp 11 7 [10] 249329912832000,
xm 12 7 [11] 847721703628800,
xp 13 7 [12] 2543165110886400,
xm 14 7 [13] 6902876729548800,
xp 15 7 [14] 17257191823872000,
xm 16 7 [15] 40266780922368000,
xp 8 8 [7] 445231987200,
xm 9 8 [8] 6678479808000,
xp 10 8 [9] 53427838464000,
xm 11 8 [10] 302757751296000,
xp 12 8 [11] 1362409880832000,
xm 13 8 [12] 5177157547161600,
xp 14 8 [13] 17257191823872000,
xm 15 8 [14] 51771575471616000,
xp 16 8 [15] 142371832546944000,
xp 9 9 [8] 1484106624000,
xm 10 9 [9] 25229812608000,
xp 11 9 [10] 227068313472000,
xm 12 9 [11] 1438099318656000,
xp 13 9 [12] 7190496593280000,
xm 14 9 [13] 30200085691776000,
xp 15 9 [14] 110733647536512000,
xm 16 9 [15] 363839127619968000,
xp 10 10 [9] 5045962521600,
xm 11 10 [10] 95873287910400,
xp 12 10 [11] 958732879104000,
xm 13 10 [12] 6711130153728000,
xp 14 10 [13] 36911215845504000,
xm 15 10 [14] 169791592889318400,
xp 16 10 [15] 679166371557273600,
xp 11 11 [10] 17431506892800,
xm 12 11 [11] 366061644748800,
xp 13 11 [12] 4026678092236800,
xm 14 11 [13] 30871198707148800,
xp 15 11 [14] 185227192242892800,
xm 16 11 [15] 926135961214464000,
xp 12 12 [11] 61010274124800,
xm 13 12 [12] 1403236304870400,
xp 14 12 [13] 16838835658444800,
xm 15 12 [14] 140323630487040000,
xp 16 12 [15] 912103598165760000,
xp 13 13 [12] 215882508441600,
xm 14 13 [13] 5397062711040000,
xp 15 13 [14] 70161815243520000,
xm 16 13 [15] 631456337191680000,
xp 14 14 [13] 771008958720000,
xm 15 14 [14] 20817241885440000,
xp 16 14 [15] 291441386396160000,
xp 15 15 [14] 2775632251392000,
xm 16 15 [15] 80493335290368000,
xp 16 16 [15] 10061666911296000]
/-- row 0 -/
def extC0 : PL := extC0_0
def extC1_0 : PL := [
xm 2 1 [1] 1037836800,
xp 3 1 [2] 1037836800,
xm 4 1 [3] 1037836800,
xp 5 1 [4] 1037836800,
xm 6 1 [5] 1037836800,
xp 7 1 [6] 1037836800,
xm 8 1 [7] 1037836800,
xp 9 1 [8] 1037836800,
xm 10 1 [9] 1037836800,
xp 11 1 [10] 1037836800,
xm 12 1 [11] 1037836800,
xp 13 1 [12] 1037836800,
xm 14 1 [13] 1037836800,
xp 15 1 [14] 1037836800,
xm 16 1 [15] 1037836800,
xp 2 2 [1] 1037836800,
xm 3 2 [2] 3113510400,
xp 4 2 [3] 6227020800,
xm 5 2 [4] 10378368000,
xp 6 2 [5] 15567552000,
xm 7 2 [6] 21794572800,
xp 8 2 [7] 29059430400,
xm 9 2 [8] 37362124800,
xp 10 2 [9] 46702656000,
xm 11 2 [10] 57081024000,
xp 12 2 [11] 68497228800,
xm 13 2 [12] 80951270400,
xp 14 2 [13] 94443148800,
xm 15 2 [14] 108972864000,
xp 16 2 [15] 124540416000,
xp 3 3 [2] 3113510400,
xm 4 3 [3] 15567552000,
xp 5 3 [1,1] 259459200,
xp 5 3 [4] 46702656000,
xm 6 3 [1,2] 518918400,
xm 6 3 [5] 108972864000,
xp 7 3 [2,2] 259459200,
xp 7 3 [1,3] 518918400,
xp 7 3 [6] 217945728000,
xm 8 3 [2,3] 518918400,
xm 8 3 [1,4] 518918400,
xm 8 3 [7] 392302310400,
xp 9 3 [3,3] 259459200,
xp 9 3 [2,4] 518918400,
xp 9 3 [1,5] 518918400,
xp 9 3 [8] 653837184000,
xm 10 3 [3,4] 518918400,
xm 10 3 [2,5] 518918400,
xm 10 3 [1,6] 518918400,
xm 10 3 [9] 1027458432000,
xp 11 3 [4,4] 259459200,
xp 11 3 [3,5] 518918400,
xp 11 3 [2,6] 518918400,
xp 11 3 [1,7] 518918400,
xp 11 3 [10] 1541187648000,
xm 12 3 [4,5] 518918400,
xm 12 3 [3,6] 518918400,
xm 12 3 [2,7] 518918400,
xm 12 3 [1,8] 518918400,
xm 12 3 [11] 2226159936000,
xp 13 3 [5,5] 259459200,
xp 13 3 [4,6] 518918400,
xp 13 3 [3,7] 518918400,
xp 13 3 [2,8] 518918400,
xp 13 3 [1,9] 518918400,
xp 13 3 [12] 3116623910400,
xm 14 3 [5,6] 518918400,
xm 14 3 [4,7] 518918400,
xm 14 3 [3,8] 518918400,
xm 14 3 [2,9] 518918400,
xm 14 3 [1,10] 518918400,
xm 14 3 [13] 4249941696000,
xp 15 3 [6,6] 259459200,
xp 15 3 [5,7] 518918400,
xp 15 3 [4,8] 518918400,
xp 15 3 [3,9] 518918400,
xp 15 3 [2,10] 518918400,
xp 15 3 [1,11] 518918400,
xp 15 3 [14] 5666588928000,
xm 16 3 [6,7] 518918400,
xm 16 3 [5,8] 518918400,
xm 16 3 [4,9] 518918400,
xm 16 3 [3,10] 518918400,
xm 16 3 [2,11] 518918400,
xm 16 3 [1,12] 518918400,
xm 16 3 [15] 7410154752000,
xp 17 3 [7,7] 259459200,
xp 17 3 [6,8] 518918400,
xp 17 3 [5,9] 518918400,
xp 17 3 [4,10] 518918400,
xp 17 3 [3,11] 518918400,
xp 17 3 [2,12] 518918400,
xp 17 3 [1,13] 518918400,
xm 18 3 [7,8] 518918400,
xm 18 3 [6,9] 518918400,
xm 18 3 [5,10] 518918400,
xm 18 3 [4,11] 518918400,
xm 18 3 [3,12] 518918400,
xm 18 3 [2,13] 518918400,
xm 18 3 [1,14] 518918400,
xp 4 4 [3] 10378368000,
xm 5 4 [1,1] 518918400,
xm 5 4 [4] 72648576000,
xp 6 4 [1,2] 2075673600,
xp 6 4 [5] 290594304000,
xm 7 4 [2,2] 1556755200,
xm 7 4 [1,3] 3632428800,
xm 7 4 [6] 871782912000,
xp 8 4 [2,3] 4670265600,
xp 8 4 [1,4] 5708102400,
xp 8 4 [7] 2179457280000,
xm 9 4 [3,3] 3113510400,
xm 9 4 [2,4] 6745939200,
xm 9 4 [1,5] 8302694400,
xm 9 4 [8] 4794806016000,
xp 10 4 [3,4] 8302694400,
xp 10 4 [2,5] 9340531200,
xp 10 4 [1,6] 11416204800,
xp 10 4 [9] 9589612032000,
xm 11 4 [4,4] 5189184000,
xm 11 4 [3,5] 10897286400,
xm 11 4 [2,6] 12454041600,
xm 11 4 [1,7] 15048633600,
xm 11 4 [10] 17809279488000,
xp 12 4 [4,5] 12972960000,
xp 12 4 [3,6] 14010796800,
xp 12 4 [2,7] 16086470400,
xp 12 4 [1,8] 19199980800,
xp 12 4 [11] 31166239104000,
xm 13 4 [5,5] 7783776000,
xm 13 4 [4,6] 16086470400,
xm 13 4 [3,7] 17643225600,
xm 13 4 [2,8] 20237817600,
xm 13 4 [1,9] 23870246400,
xm 13 4 [12] 51943731840000,
xp 14 4 [5,6] 18681062400,
xp 14 4 [4,7] 19718899200,
xp 14 4 [3,8] 21794572800,
xp 14 4 [2,9] 24908083200,
xp 14 4 [1,10] 29059430400,
xp 14 4 [13] 83109970944000,
xm 15 4 [6,6] 10897286400,
xm 15 4 [5,7] 22313491200,
xm 15 4 [4,8] 23870246400,
xm 15 4 [3,9] 26464838400,
xm 15 4 [2,10] 30097267200,
xm 15 4 [1,11] 34767532800,
xm 15 4 [14] 128442682368000,
xp 16 4 [6,7] 25427001600,
xp 16 4 [5,8] 26464838400,
xp 16 4 [4,9] 28540512000,
xp 16 4 [3,10] 31654022400,
xp 16 4 [2,11] 35805369600,
xp 16 4 [1,12] 40994553600,
xp 16 4 [15] 192664023552000,
xm 17 4 [7,7] 14529715200,
xm 17 4 [6,8] 29578348800,
xm 17 4 [5,9] 31135104000,
xm 17 4 [4,10] 33729696000,
xm 17 4 [3,11] 37362124800,
xm 17 4 [2,12] 42032390400,
xm 17 4 [1,13] 47740492800,
xp 18 4 [7,8] 33210777600,
xp 18 4 [6,9] 34248614400,
xp 18 4 [5,10] 36324288000,
xp 18 4 [4,11] 39437798400,
xp 18 4 [3,12] 43589145600,
xp 18 4 [2,13] 48778329600,
xp 18 4 [1,14] 55005350400,
xp 5 5 [1,1] 259459200,
xp 5 5 [4] 36324288000,
xm 6 5 [1,2] 2594592000,
xm 6 5 [5] 326918592000,
xp 7 5 [2,2] 3372969600,
xp 7 5 [1,3] 8302694400,
xp 7 5 [6] 1634592960000,
xm 8 5 [2,3] 15567552000,
xm 8 5 [1,4] 20756736000,
xm 8 5 [7] 5993507520000,
xp 9 5 [3,3] 14529715200,
xp 9 5 [2,4] 32172940800,
xp 9 5 [1,5] 44108064000,
xp 9 5 [8] 17980522560000,
xm 10 5 [3,4] 51891840000,
xm 10 5 [2,5] 60713452800,
xm 10 5 [1,6] 83545862400,
xm 10 5 [9] 46749358656000,
xp 11 5 [4,4] 41513472000,
xp 11 5 [3,5] 88216128000,
xp 11 5 [2,6] 106378272000,
xp 11 5 [1,7] 145297152000,
xp 11 5 [10] 109081836864000,
xm 12 5 [4,5] 129729600000,
xm 12 5 [3,6] 143221478400,
xm 12 5 [2,7] 175394419200,
xm 12 5 [1,8] 236626790400,
xm 12 5 [11] 233746793280000,
xp 13 5 [5,5] 94702608000,
xp 13 5 [4,6] 197188992000,
xp 13 5 [3,7] 223134912000,
xp 13 5 [2,8] 275026752000,
xp 13 5 [1,9] 365837472000,
xp 13 5 [12] 467493586560000,
xm 14 5 [5,6] 272432160000,
xm 14 5 [4,7] 291632140800,
xm 14 5 [3,8] 335221286400,
xm 14 5 [2,9] 413577964800,
xm 14 5 [1,10] 542269728000,
xm 14 5 [13] 883043441280000,
xp 15 5 [6,6] 187070083200,
xp 15 5 [5,7] 385037452800,
xp 15 5 [4,8] 420323904000,
xp 15 5 [3,9] 487783296000,
xp 15 5 [2,10] 600388588800,
xp 15 5 [1,11] 776301926400,
xp 15 5 [14] 1589478194304000,
xm 16 5 [6,7] 508540032000,
xm 16 5 [5,8] 534485952000,
xm 16 5 [4,9] 591566976000,
xm 16 5 [3,10] 690161472000,
xm 16 5 [2,11] 845836992000,
xm 16 5 [1,12] 1079350272000,
xm 16 5 [15] 2745462335616000,
xp 17 5 [7,7] 334183449600,
xp 17 5 [6,8] 682896614400,
xp 17 5 [5,9] 729080352000,
xp 17 5 [4,10] 814701888000,
xp 17 5 [3,11] 952734182400,
xp 17 5 [2,12] 1161339379200,
xp 17 5 [1,13] 1463868806400,
xm 18 5 [7,8] 871782912000,
xm 18 5 [6,9] 905512608000,
xm 18 5 [5,10] 978161184000,
xm 18 5 [4,11] 1100107008000,
xm 18 5 [3,12] 1286917632000,
xm 18 5 [2,13] 1559349792000,
xm 18 5 [1,14] 1943349408000,
xp 6 6 [1,2] 1037836800,
xp 6 6 [5] 130767436800,
xm 7 6 [2,2] 3113510400,
xm 7 6 [1,3] 7783776000,
xm 7 6 [6] 1438441804800,
xp 8 6 [2,3] 24389164800,
xp 8 6 [1,4] 33729696000,
xp 8 6 [7] 8630650828800,
xm 9 6 [3,3] 33729696000,
xm 9 6 [2,4] 75243168000,
xm 9 6 [1,5] 108972864000,
xm 9 6 [8] 37399486924800,
xp 10 6 [3,4] 166053888000,
xp 10 6 [2,5] 197188992000,
xp 10 6 [1,6] 290594304000,
xp 10 6 [9] 130898204236800,
xm 11 6 [4,4] 173837664000,
xm 11 6 [3,5] 371026656000,
xm 11 6 [2,6] 457686028800,
xm 11 6 [1,7] 675631756800,
xm 11 6 [10] 392694612710400,
xp 12 6 [4,5] 687566880000,
xp 12 6 [3,6] 765404640000,
xp 12 6 [2,7] 966226060800,
xp 12 6 [1,8] 1416647232000,
xp 12 6 [11] 1047185633894400,
xm 13 6 [5,5] 617512896000,
xm 13 6 [4,6] 1289512224000,
xm 13 6 [3,7] 1477360684800,
xm 13 6 [2,8] 1889900812800,
xm 13 6 [1,9] 2739889152000,
xm 13 6 [12] 2543165110886400,
xp 14 6 [5,6] 2143132992000,
xp 14 6 [4,7] 2306592288000,
xp 14 6 [3,8] 2695781088000,
xp 14 6 [2,9] 3471564096000,
xp 14 6 [1,10] 4966049088000,
xp 14 6 [13] 5722121499494400,
xm 15 6 [6,6] 1743565824000,
xm 15 6 [5,7] 3596104512000,
xm 15 6 [4,8] 3956752800000,
xm 15 6 [3,9] 4688427744000,
xm 15 6 [2,10] 6050588544000,
xm 15 6 [1,11] 8533613088000,
xm 15 6 [14] 12080034276710400,
xp 16 6 [6,7] 5543086348800,
xp 16 6 [5,8] 5848210368000,
xp 16 6 [4,9] 6540966432000,
xp 16 6 [3,10] 7822694880000,
xp 16 6 [2,11] 10086216940800,
xp 16 6 [1,12] 14024807596800,
xp 16 6 [15] 24160068553420800,
xm 17 6 [7,7] 4206352550400,
xm 17 6 [6,8] 8608856256000,
xm 17 6 [5,9] 9241936704000,
xm 17 6 [4,10] 10463989536000,
xm 17 6 [3,11] 12588960384000,
xm 17 6 [2,12] 16183508140800,
xm 17 6 [1,13] 22194139968000,
xp 18 6 [7,8] 12553673932800,
xp 18 6 [6,9] 13076743680000,
xp 18 6 [5,10] 14228742528000,
xp 18 6 [4,11] 16257713472000,
xp 18 6 [3,12] 19626531724800,
xp 18 6 [2,13] 25121877580800,
xp 18 6 [1,14] 33999533568000,
xp 7 7 [2,2] 1037836800,
xp 7 7 [1,3] 2594592000,
xp 7 7 [6] 479480601600,
xm 8 7 [2,3] 18162144000,
xm 8 7 [1,4] 25427001600,
xm 8 7 [7] 6233247820800,
xp 9 7 [3,3] 41513472000,
xp 9 7 [2,4] 92886393600,
xp 9 7 [1,5] 138032294400,
xp 9 7 [8] 43632734745600,
xm 10 7 [3,4] 297859161600,
xm 10 7 [2,5] 355978022400,
xm 10 7 [1,6] 544864320000,
xm 10 7 [9] 218163673728000,
xp 11 7 [4,4] 422399577600,
xp 11 7 [3,5] 903436934400,
xp 11 7 [2,6] 1126052928000,
xp 11 7 [1,7] 1743565824000,
xp 11 7 [10] 872654694912000,
xm 12 7 [4,5] 2161295136000,
xm 12 7 [3,6] 2415565152000,
xm 12 7 [2,7] 3094829337600,
xm 12 7 [1,8] 4794806016000,
xm 12 7 [11] 2967025962700800,
xp 13 7 [5,5] 2426462438400,
xp 13 7 [4,6] 5074503033600,
xp 13 7 [3,7] 5848210368000,
xp 13 7 [2,8] 7628100480000,
xp 13 7 [1,9] 11747274739200,
xp 13 7 [12] 8901077888102400,
xm 14 7 [5,6] 10272508646400,
xm 14 7 [4,7] 11086172697600,
xm 14 7 [3,8] 13061176128000,
xm 14 7 [2,9] 17227053043200,
xm 14 7 [1,10] 26268687244800,
xm 14 7 [13] 24160068553420800,
xp 15 7 [6,6] 9989179200000,
xp 15 7 [5,7] 20624930726400,
xp 15 7 [4,8] 22782593433600,
xp 15 7 [3,9] 27275907859200,
xp 15 7 [2,10] 36200785420800,
xp 15 7 [1,11] 54540918432000,
xp 15 7 [14] 60400171383552000,
xm 16 7 [6,7] 37377692352000,
xm 16 7 [5,8] 39513560486400,
xm 16 7 [4,9] 44423047468800,
xm 16 7 [3,10] 53810281324800,
xm 16 7 [2,11] 71608144608000,
xm 16 7 [1,12] 106484650272000,
xm 16 7 [15] 140933733228288000,
xp 17 7 [7,7] 32931599500800,
xp 17 7 [6,8] 67454202816000,
xp 17 7 [5,9] 72619516569600,
xp 17 7 [4,10] 82757625350400,
xp 17 7 [3,11] 101090493504000,
xp 17 7 [2,12] 134534265465600,
xp 17 7 [1,13] 197386180992000,
xm 18 7 [7,8] 112895887104000,
xm 18 7 [6,9] 117777871411200,
xm 18 7 [5,10] 128623265971200,
xm 18 7 [4,11] 148132522137600,
xm 18 7 [3,12] 182005439616000,
xm 18 7 [2,13] 241774460928000,
xm 18 7 [1,14] 350006309452800,
xp 8 8 [2,3] 5189184000,
xp 8 8 [1,4] 7264857600,
xp 8 8 [7] 1780927948800,
xm 9 8 [3,3] 25945920000,
xm 9 8 [2,4] 58118860800,
xm 9 8 [1,5] 87178291200,
xm 9 8 [8] 26713919232000,
xp 10 8 [3,4] 303048345600,
xp 10 8 [2,5] 363242880000,
xp 10 8 [1,6] 566658892800,
xp 10 8 [9] 213711353856000,
xm 11 8 [4,4] 617512896000,
xm 11 8 [3,5] 1322204083200,
xm 11 8 [2,6] 1656387532800,
xm 11 8 [1,7] 2637143308800,
xm 11 8 [10] 1211031005184000,
xp 12 8 [4,5] 4235411980800,
xp 12 8 [3,6] 4743952012800,
xp 12 8 [2,7] 6124274956800,
xp 12 8 [1,8] 9829352332800,
xp 12 8 [11] 5449639523328000,
xm 13 8 [5,5] 6087950668800,
xm 13 8 [4,6] 12742560230400,
xm 13 8 [3,7] 14733131212800,
xm 13 8 [2,8] 19418964364800,
xm 13 8 [1,9] 31166239104000,
xm 13 8 [12] 20708630188646400,
xp 14 8 [5,6] 31965373440000,
xp 14 8 [4,7] 34551662745600,
xp 14 8 [3,8] 40886618572800,
xp 14 8 [2,9] 54660788582400,
xp 14 8 [1,10] 87265469491200,
xp 14 8 [13] 69028767295488000]
def extC1_1 : PL := [
xm 15 8 [6,6] 37617432652800,
xm 15 8 [5,7] 77719446604800,
xm 15 8 [4,8] 86044973414400,
xm 15 8 [3,9] 103602058560000,
xm 15 8 [2,10] 139802843980800,
xm 15 8 [1,11] 221280297638400,
xm 15 8 [14] 207086301886464000,
xp 16 8 [6,7] 167207962521600,
xp 16 8 [5,8] 176971931136000,
xp 16 8 [4,9] 199551108556800,
xp 16 8 [3,10] 243439151155200,
xp 16 8 [2,11] 330362134502400,
xp 16 8 [1,12] 517359569126400,
xp 16 8 [15] 569487330187776000,
xm 17 8 [7,7] 172307892556800,
xm 17 8 [6,8] 353115668505600,
xm 17 8 [5,9] 380794775961600,
xm 17 8 [4,10] 435562461734400,
xm 17 8 [3,11] 536652955238400,
xm 17 8 [2,12] 730328869670400,
xm 17 8 [1,13] 1130295604838400,
xp 18 8 [7,8] 682431663513600,
xp 18 8 [6,9] 712595352268800,
xp 18 8 [5,10] 779896993075200,
xp 18 8 [4,11] 902222665344000,
xp 18 8 [3,12] 1119906858470400,
xp 18 8 [2,13] 1525067966822400,
xp 18 8 [1,14] 2331234684979200,
xp 9 9 [3,3] 6486480000,
xp 9 9 [2,4] 14529715200,
xp 9 9 [1,5] 21794572800,
xp 9 9 [8] 6678479808000,
xm 10 9 [3,4] 163459296000,
xm 10 9 [2,5] 196151155200,
xm 10 9 [1,6] 308237529600,
xm 10 9 [9] 113534156736000,
xp 11 9 [4,4] 535783248000,
xp 11 9 [3,5] 1147847500800,
xp 11 9 [2,6] 1441555315200,
xp 11 9 [1,7] 2328905779200,
xp 11 9 [10] 1021807410624000,
xm 12 9 [4,5] 5230697472000,
xm 12 9 [3,6] 5865853593600,
xm 12 9 [2,7] 7603192396800,
xm 12 9 [1,8] 12466495641600,
xm 12 9 [11] 6471446933952000,
xp 13 9 [5,5] 9989179200000,
xp 13 9 [4,6] 20918638540800,
xp 13 9 [3,7] 24232451443200,
xp 13 9 [2,8] 32125200307200,
xp 13 9 [1,9] 52982606476800,
xp 13 9 [12] 32357234669760000,
xm 14 9 [5,6] 66672711705600,
xm 14 9 [4,7] 72136922457600,
xm 14 9 [3,8] 85587287385600,
xm 14 9 [2,9] 115315084684800,
xm 14 9 [1,10] 190114058534400,
xm 14 9 [13] 135900385612992000,
xp 15 9 [6,6] 96640249305600,
xp 15 9 [5,7] 199744146201600,
xp 15 9 [4,8] 221454654220800,
xp 15 9 [3,9] 267550175692800,
xp 15 9 [2,10] 364644997516800,
xp 15 9 [1,11] 598391790796800,
xp 15 9 [14] 498301413914304000,
xm 16 9 [6,7] 516923677670400,
xm 16 9 [5,8] 547523257881600,
xm 16 9 [4,9] 618529976064000,
xm 16 9 [3,10] 757784842214400,
xm 16 9 [2,11] 1040952386073600,
xm 16 9 [1,12] 1695443407257600,
xm 16 9 [15] 1637276074289856000,
xp 17 9 [7,7] 629293381516800,
xp 17 9 [6,8] 1290045672115200,
xp 17 9 [5,9] 1392673201920000,
xp 17 9 [4,10] 1596670403328000,
xp 17 9 [3,11] 1977497871148800,
xp 17 9 [2,12] 2730162545510400,
xp 17 9 [1,13] 4405125281356800,
xm 18 9 [7,8] 2901748103654400,
xm 18 9 [6,9] 3031824341145600,
xm 18 9 [5,10] 3322800569088000,
xm 18 9 [4,11] 3854744339846400,
xm 18 9 [3,12] 4814664504249600,
xm 18 9 [2,13] 6665716491033600,
xm 18 9 [1,14] 10641934958054400,
xp 10 10 [3,4] 36324288000,
xp 10 10 [2,5] 43589145600,
xp 10 10 [1,6] 68497228800,
xp 10 10 [9] 25229812608000,
xm 11 10 [4,4] 254270016000,
xm 11 10 [3,5] 544864320000,
xm 11 10 [2,6] 684972288000,
xm 11 10 [1,7] 1113079968000,
xm 11 10 [10] 479366439552000,
xp 12 10 [4,5] 3959347392000,
xp 12 10 [3,6] 4442979340800,
xp 12 10 [2,7] 5770891526400,
xp 12 10 [1,8] 9572487724800,
xp 12 10 [11] 4793664395520000,
xm 13 10 [5,5] 10679340672000,
xm 13 10 [4,6] 22370572224000,
xm 13 10 [3,7] 25943325408000,
xm 13 10 [2,8] 34505479008000,
xm 13 10 [1,9] 57880158336000,
xm 13 10 [12] 33555650768640000,
xp 14 10 [5,6] 94090284288000,
xp 14 10 [4,7] 101863163001600,
xp 14 10 [3,8] 121051727596800,
xp 14 10 [2,9] 163845371289600,
xp 14 10 [1,10] 276043832064000,
xp 14 10 [13] 184556079227520000,
xm 15 10 [6,6] 172307892556800,
xm 15 10 [5,7] 356233849171200,
xm 15 10 [4,8] 395314631712000,
xm 15 10 [3,9] 478624386240000,
xm 15 10 [2,10] 656271949132800,
xm 15 10 [1,11] 1105065792230400,
xm 15 10 [14] 848957964446592000,
xp 16 10 [6,7] 1129355843616000,
xp 16 10 [5,8] 1196810046432000,
xp 16 10 [4,9] 1353676484160000,
xp 16 10 [3,10] 1662941472192000,
xp 16 10 [2,11] 2301849373824000,
xp 16 10 [1,12] 3860161329024000,
xp 16 10 [15] 3395831857786368000,
xm 17 10 [7,7] 1646279521286400,
xm 17 10 [6,8] 3375594808185600,
xm 17 10 [5,9] 3646792461312000,
xm 17 10 [4,10] 4187406839616000,
xm 17 10 [3,11] 5203426234406400,
xm 17 10 [2,12] 7251048143539200,
xm 17 10 [1,13] 12080034276710400,
xp 18 10 [7,8] 8929983718656000,
xp 18 10 [6,9] 9334117368576000,
xp 18 10 [5,10] 10239650733312000,
xp 18 10 [4,11] 11901051017856000,
xp 18 10 [3,12] 14924176210944000,
xp 18 10 [2,13] 20890284839424000,
xp 18 10 [1,14] 34514383647744000,
xp 11 11 [4,4] 50854003200,
xp 11 11 [3,5] 108972864000,
xp 11 11 [2,6] 136994457600,
xp 11 11 [1,7] 222615993600,
xp 11 11 [10] 95873287910400,
xm 12 11 [4,5] 1678182105600,
xm 12 11 [3,6] 1883673792000,
xm 12 11 [2,7] 2448775929600,
xm 12 11 [1,8] 4081293216000,
xm 12 11 [11] 2013339046118400,
xp 13 11 [5,5] 7170414451200,
xp 13 11 [4,6] 15022687680000,
xp 13 11 [3,7] 17432544729600,
xp 13 11 [2,8] 23226268665600,
xp 13 11 [1,9] 39328825536000,
xp 13 11 [12] 22146729507302400,
xm 14 11 [5,6] 88703911296000,
xm 14 11 [4,7] 96067363392000,
xm 14 11 [3,8] 114276210048000,
xm 14 11 [2,9] 155089142208000,
xm 14 11 [1,10] 264913032384000,
xm 14 11 [13] 169791592889318400,
xp 15 11 [6,6] 213259894848000,
xp 15 11 [5,7] 440974261728000,
xp 15 11 [4,8] 489641023872000,
xp 15 11 [3,9] 593642649600000,
xp 15 11 [2,10] 817000696512000,
xp 15 11 [1,11] 1400254599744000,
xp 15 11 [14] 1018749557335910400,
xm 16 11 [6,7] 1757656015315200,
xm 16 11 [5,8] 1863267325920000,
xm 16 11 [4,9] 2109212334028800,
xm 16 11 [3,10] 2595702485376000,
xm 16 11 [2,11] 3610386184204800,
xm 16 11 [1,12] 6183827070220800,
xm 16 11 [15] 5093747786679552000,
xp 17 11 [7,7] 3125494301529600,
xp 17 11 [6,8] 6409599644448000,
xp 17 11 [5,9] 6928026628723200,
xp 17 11 [4,10] 7963419323059200,
xp 17 11 [3,11] 9917542514880000,
xp 17 11 [2,12] 13904149728268800,
xp 17 11 [1,13] 23728638757824000,
xm 18 11 [7,8] 20221740470131200,
xm 18 11 [6,9] 21142982532672000,
xm 18 11 [5,10] 23209498260748800,
xm 18 11 [4,11] 27009998503488000,
xm 18 11 [3,12] 33961850751628800,
xm 18 11 [2,13] 47888707311244800,
xm 18 11 [1,14] 81252611504064000,
xp 12 12 [4,5] 305124019200,
xp 12 12 [3,6] 342486144000,
xp 12 12 [2,7] 445231987200,
xp 12 12 [1,8] 742053312000,
xp 12 12 [11] 366061644748800,
xm 13 12 [5,5] 2746116172800,
xm 13 12 [4,6] 5753767219200,
xm 13 12 [3,7] 6678479808000,
xm 13 12 [2,8] 8904639744000,
xm 13 12 [1,9] 15137887564800,
xm 13 12 [12] 8419417829222400,
xp 14 12 [5,6] 53527470796800,
xp 14 12 [4,7] 57982904179200,
xp 14 12 [3,8] 69010958016000,
xp 14 12 [2,9] 93795538636800,
xp 14 12 [1,10] 161470800691200,
xp 14 12 [13] 101033013950668800,
xm 15 12 [6,6] 179805225600000,
xm 15 12 [5,7] 371837206540800,
xm 15 12 [4,8] 413026873459200,
xm 15 12 [3,9] 501182806924800,
xm 15 12 [2,10] 691296865459200,
xm 15 12 [1,11] 1198416098880000,
xm 15 12 [14] 841941782922240000,
xp 16 12 [6,7] 1937101630464000,
xp 16 12 [5,8] 2053957902796800,
xp 16 12 [4,9] 2326337133120000,
xp 16 12 [3,10] 2866255122931200,
xp 16 12 [2,11] 3998925298368000,
xp 16 12 [1,12] 6950813373504000,
xp 16 12 [15] 5472621588994560000,
xm 17 12 [7,7] 4313886972595200,
xm 17 12 [6,8] 8847615801024000,
xm 17 12 [5,9] 9566551298304000,
xm 17 12 [4,10] 11004205384972800,
xm 17 12 [3,11] 13725018058752000,
xm 17 12 [2,12] 19318467513945600,
xm 17 12 [1,13] 33555650768640000,
xp 18 12 [7,8] 33924850831872000,
xp 18 12 [6,9] 35477614511539200,
xp 18 12 [5,10] 38963438485171200,
xp 18 12 [4,11] 45384574204569600,
xp 18 12 [3,12] 57170755369728000,
xp 18 12 [2,13] 81012928284288000,
xp 18 12 [1,14] 140262620212915200,
xp 13 13 [5,5] 457686028800,
xp 13 13 [4,6] 958961203200,
xp 13 13 [3,7] 1113079968000,
xp 13 13 [2,8] 1484106624000,
xp 13 13 [1,9] 2522981260800,
xp 13 13 [12] 1403236304870400,
xm 14 13 [5,6] 18699743462400,
xm 14 13 [4,7] 20258055417600,
xm 14 13 [3,8] 24116732640000,
xm 14 13 [2,9] 32798756390400,
xm 14 13 [1,10] 56652397401600,
xm 14 13 [13] 35080907621760000,
xp 15 13 [6,6] 98533263628800,
xp 15 13 [5,7] 203779255680000,
xp 15 13 [4,8] 226400465491200,
xp 15 13 [3,9] 274856546764800,
xp 15 13 [2,10] 379593998784000,
xp 15 13 [1,11] 662397261926400,
xp 15 13 [14] 456051799082880000,
xm 16 13 [6,7] 1477279733529600,
xm 16 13 [5,8] 1566622952294400,
xm 16 13 [4,9] 1774991522304000,
xm 16 13 [3,10] 2188571562777600,
xm 16 13 [2,11] 3059229459686400,
xm 16 13 [1,12] 5368904122982400,
xm 16 13 [15] 4104466191745920000,
xp 17 13 [7,7] 4284398915596800,
xp 17 13 [6,8] 8787760639257600,
xp 17 13 [5,9] 9504070409433600,
xp 17 13 [4,10] 10937676932582400,
xp 17 13 [3,11] 13655750755046400,
xp 17 13 [2,12] 19270530869990400,
xp 17 13 [1,13] 33891207276326400,
xm 18 13 [7,8] 42055723046937600,
xm 18 13 [6,9] 43986990996748800,
xm 18 13 [5,10] 48324845772403200,
xm 18 13 [4,11] 56324409837696000,
xm 18 13 [3,12] 71042106341606400,
xm 18 13 [2,13] 101002508813606400,
xm 18 13 [1,14] 177509392566105600,
xp 14 14 [5,6] 2876883609600,
xp 14 14 [4,7] 3116623910400,
xp 14 14 [3,8] 3710266560000,
xp 14 14 [2,9] 5045962521600,
xp 14 14 [1,10] 8715753446400,
xp 14 14 [13] 5397062711040000,
xm 15 14 [6,6] 31645719705600,
xm 15 14 [5,7] 65449102118400,
xm 15 14 [4,8] 72721224576000,
xm 15 14 [3,9] 88304344128000,
xm 15 14 [2,10] 122020548249600,
xm 15 14 [1,11] 213535959436800,
xm 15 14 [14] 145720693198080000,
xp 16 14 [6,7] 741516750374400,
xp 16 14 [5,8] 786428100057600,
xp 16 14 [4,9] 891206027712000,
xp 16 14 [3,10] 1099331743910400,
xp 16 14 [2,11] 1538330483289600,
xp 16 14 [1,12] 2714957198553600,
xp 16 14 [15] 2040089704773120000,
xm 17 14 [7,7] 2982609082252800,
xm 17 14 [6,8] 6117932736115200,
xm 17 14 [5,9] 6617631436416000,
xm 17 14 [4,10] 7618256597952000,
xm 17 14 [3,11] 9517602763468800,
xm 17 14 [2,12] 13452765444518400,
xm 17 14 [1,13] 23855017182796800,
xp 18 14 [7,8] 38010345211238400,
xp 18 14 [6,9] 39759810099609600,
xp 18 14 [5,10] 43690749822720000,
xp 18 14 [4,11] 50945413789670400,
xp 18 14 [3,12] 64313544680985600,
xp 18 14 [2,13] 91637431735449600,
xp 18 14 [1,14] 162775411364966400,
xp 15 15 [6,6] 4520817100800,
xp 15 15 [5,7] 9349871731200,
xp 15 15 [4,8] 10388746368000,
xp 15 15 [3,9] 12614906304000,
xp 15 15 [2,10] 17431506892800,
xp 15 15 [1,11] 30505137062400,
xp 15 15 [14] 20817241885440000,
xm 16 15 [6,7] 220389833664000,
xm 16 15 [5,8] 233746793280000,
xm 16 15 [4,9] 264913032384000,
xm 16 15 [3,10] 326840754240000,
xm 16 15 [2,11] 457577055936000,
xm 16 15 [1,12] 809559406656000,
xm 16 15 [15] 603700014677760000,
xp 17 15 [7,7] 1381109624294400,
xp 17 15 [6,8] 2833011134553600,
xp 17 15 [5,9] 3064680178560000,
xp 17 15 [4,10] 3528733336128000,
xp 17 15 [3,11] 4410171243878400,
xp 17 15 [2,12] 6239473803763200,
xp 17 15 [1,13] 11117949184742400,
xm 18 15 [7,8] 24340832740224000,
xm 18 15 [6,9] 25462817347968000,
xm 18 15 [5,10] 27984449420928000,
xm 18 15 [4,11] 32640496656768000,
xm 18 15 [3,12] 41228866014336000,
xm 18 15 [2,13] 58827983550336000,
xm 18 15 [1,14] 105242722865280000,
xp 16 16 [6,7] 29385311155200,
xp 16 16 [5,8] 31166239104000,
xp 16 16 [4,9] 35321737651200,
xp 16 16 [3,10] 43578767232000,
xp 16 16 [2,11] 61010274124800,
xp 16 16 [1,12] 107941254220800,
xp 16 16 [15] 80493335290368000,
xm 17 16 [7,7] 382009045017600,
xm 17 16 [6,8] 783608297472000,
xm 17 16 [5,9] 847721703628800,
xm 17 16 [4,10] 976164385996800,
xm 17 16 [3,11] 1220205482496000,
xm 17 16 [2,12] 1727060067532800,
xm 17 16 [1,13] 3084035834880000,
xp 18 16 [7,8] 10461170771251200,
xp 18 16 [6,9] 10943802245376000,
xp 18 16 [5,10] 12028657203763200,
xp 18 16 [4,11] 14032363048704000,
xp 18 16 [3,12] 17730524280268800,
xp 18 16 [2,13] 25319934204364800,
xp 18 16 [1,14] 45489528564480000,
xp 17 17 [7,7] 47751130627200,
xp 17 17 [6,8] 97951037184000,
xp 17 17 [5,9] 105965212953600,
xp 17 17 [4,10] 122020548249600,
xp 17 17 [3,11] 152525685312000,
xp 17 17 [2,12] 215882508441600,
xp 17 17 [1,13] 385504479360000,
xm 18 17 [7,8] 2705897402208000,
xm 18 17 [6,9] 2830784974617600,
xm 18 17 [5,10] 3111523980364800,
xm 18 17 [4,11] 3630111310425600,
xm 18 17 [3,12] 4587503304384000,
xm 18 17 [2,13] 6553576149120000,
xm 18 17 [1,14] 11796437068416000,
xp 18 18 [7,8] 318340870848000,
xp 18 18 [6,9] 333033526425600,
xp 18 18 [5,10] 366061644748800,
xp 18 18 [4,11] 427071918873600,
xp 18 18 [3,12] 539706271104000,
xp 18 18 [2,13] 771008958720000,
xp 18 18 [1,14] 1387816125696000]
/-- row 1 -/
def extC1 : PL := extC1_0 ++ extC1_1
def extC2_0 : PL := [
xm 3 3 [2] 3113510400,
xp 4 3 [3] 15567552000,
xp 5 3 [1,1] 259459200,
xm 5 3 [4] 46702656000,
xm 6 3 [1,2] 518918400,
xp 6 3 [5] 108972864000,
xp 7 3 [2,2] 259459200,
xp 7 3 [1,3] 518918400,
xm 7 3 [6] 217945728000,
xm 8 3 [2,3] 518918400,
xm 8 3 [1,4] 518918400,
xp 8 3 [7] 392302310400,
xp 9 3 [3,3] 259459200,
xp 9 3 [2,4] 518918400,
xp 9 3 [1,5] 518918400,
xm 9 3 [8] 653837184000,
xm 10 3 [3,4] 518918400,
xm 10 3 [2,5] 518918400,
xm 10 3 [1,6] 518918400,
xp 10 3 [9] 1027458432000,
xp 11 3 [4,4] 259459200,
xp 11 3 [3,5] 518918400,
xp 11 3 [2,6] 518918400,
xp 11 3 [1,7] 518918400,
xm 11 3 [10] 1541187648000,
xm 12 3 [4,5] 518918400,
xm 12 3 [3,6] 518918400,
xm 12 3 [2,7] 518918400,
xm 12 3 [1,8] 518918400,
xp 12 3 [11] 2226159936000,
xp 13 3 [5,5] 259459200,
xp 13 3 [4,6] 518918400,
xp 13 3 [3,7] 518918400,
xp 13 3 [2,8] 518918400,
xp 13 3 [1,9] 518918400,
xm 13 3 [12] 3116623910400,
xm 14 3 [5,6] 518918400,
xm 14 3 [4,7] 518918400,
xm 14 3 [3,8] 518918400,
xm 14 3 [2,9] 518918400,
xm 14 3 [1,10] 518918400,
xp 14 3 [13] 4249941696000,
xp 15 3 [6,6] 259459200,
xp 15 3 [5,7] 518918400,
xp 15 3 [4,8] 518918400,
xp 15 3 [3,9] 518918400,
xp 15 3 [2,10] 518918400,
xp 15 3 [1,11] 518918400,
xm 15 3 [14] 5666588928000,
xm 16 3 [6,7] 518918400,
xm 16 3 [5,8] 518918400,
xm 16 3 [4,9] 518918400,
xm 16 3 [3,10] 518918400,
xm 16 3 [2,11] 518918400,
xm 16 3 [1,12] 518918400,
xp 16 3 [15] 7410154752000,
xp 17 3 [7,7] 259459200,
xp 17 3 [6,8] 518918400,
xp 17 3 [5,9] 518918400,
xp 17 3 [4,10] 518918400,
xp 17 3 [3,11] 518918400,
xp 17 3 [2,12] 518918400,
xp 17 3 [1,13] 518918400,
xm 18 3 [7,8] 518918400,
xm 18 3 [6,9] 518918400,
xm 18 3 [5,10] 518918400,
xm 18 3 [4,11] 518918400,
xm 18 3 [3,12] 518918400,
xm 18 3 [2,13] 518918400,
xm 18 3 [1,14] 518918400,
xm 4 4 [3] 15567552000,
xm 5 4 [1,1] 518918400,
xp 5 4 [4] 108972864000,
xp 6 4 [1,2] 2075673600,
xm 6 4 [5] 435891456000,
xm 7 4 [2,2] 1556755200,
xm 7 4 [1,3] 3632428800,
xp 7 4 [6] 1307674368000,
xp 8 4 [2,3] 4670265600,
xp 8 4 [1,4] 5708102400,
xm 8 4 [7] 3269185920000,
xm 9 4 [3,3] 3113510400,
xm 9 4 [2,4] 6745939200,
xm 9 4 [1,5] 8302694400,
xp 9 4 [8] 7192209024000,
xp 10 4 [3,4] 8302694400,
xp 10 4 [2,5] 9340531200,
xp 10 4 [1,6] 11416204800,
xm 10 4 [9] 14384418048000,
xm 11 4 [4,4] 5189184000,
xm 11 4 [3,5] 10897286400,
xm 11 4 [2,6] 12454041600,
xm 11 4 [1,7] 15048633600,
xp 11 4 [10] 26713919232000,
xp 12 4 [4,5] 12972960000,
xp 12 4 [3,6] 14010796800,
xp 12 4 [2,7] 16086470400,
xp 12 4 [1,8] 19199980800,
xm 12 4 [11] 46749358656000,
xm 13 4 [5,5] 7783776000,
xm 13 4 [4,6] 16086470400,
xm 13 4 [3,7] 17643225600,
xm 13 4 [2,8] 20237817600,
xm 13 4 [1,9] 23870246400,
xp 13 4 [12] 77915597760000,
xp 14 4 [5,6] 18681062400,
xp 14 4 [4,7] 19718899200,
xp 14 4 [3,8] 21794572800,
xp 14 4 [2,9] 24908083200,
xp 14 4 [1,10] 29059430400,
xm 14 4 [13] 124664956416000,
xm 15 4 [6,6] 10897286400,
xm 15 4 [5,7] 22313491200,
xm 15 4 [4,8] 23870246400,
xm 15 4 [3,9] 26464838400,
xm 15 4 [2,10] 30097267200,
xm 15 4 [1,11] 34767532800,
xp 15 4 [14] 192664023552000,
xp 16 4 [6,7] 25427001600,
xp 16 4 [5,8] 26464838400,
xp 16 4 [4,9] 28540512000,
xp 16 4 [3,10] 31654022400,
xp 16 4 [2,11] 35805369600,
xp 16 4 [1,12] 40994553600,
xm 16 4 [15] 288996035328000,
xm 17 4 [7,7] 14529715200,
xm 17 4 [6,8] 29578348800,
xm 17 4 [5,9] 31135104000,
xm 17 4 [4,10] 33729696000,
xm 17 4 [3,11] 37362124800,
xm 17 4 [2,12] 42032390400,
xm 17 4 [1,13] 47740492800,
xp 18 4 [7,8] 33210777600,
xp 18 4 [6,9] 34248614400,
xp 18 4 [5,10] 36324288000,
xp 18 4 [4,11] 39437798400,
xp 18 4 [3,12] 43589145600,
xp 18 4 [2,13] 48778329600,
xp 18 4 [1,14] 55005350400,
xp 5 5 [1,1] 172972800,
xm 5 5 [4] 72648576000,
xm 6 5 [1,2] 2594592000,
xp 6 5 [5] 653837184000,
xp 7 5 [2,2] 3113510400,
xp 7 5 [1,3] 9859449600,
xm 7 5 [6] 3269185920000,
xm 8 5 [1,1,1] 43243200,
xm 8 5 [2,3] 15567552000,
xm 8 5 [1,4] 26810784000,
xp 8 5 [7] 11987015040000,
xp 9 5 [1,1,2] 129729600,
xp 9 5 [3,3] 14010796800,
xp 9 5 [2,4] 35286451200,
xp 9 5 [1,5] 59675616000,
xm 9 5 [8] 35961045120000,
xm 10 5 [1,2,2] 129729600,
xm 10 5 [1,1,3] 129729600,
xm 10 5 [3,4] 51891840000,
xm 10 5 [2,5] 71610739200,
xm 10 5 [1,6] 116237721600,
xp 10 5 [9] 93498717312000,
xp 11 5 [2,2,2] 43243200,
xp 11 5 [1,2,3] 259459200,
xp 11 5 [1,1,4] 129729600,
xp 11 5 [4,4] 40648608000,
xp 11 5 [3,5] 93405312000,
xp 11 5 [2,6] 132324192000,
xp 11 5 [1,7] 205837632000,
xm 11 5 [10] 218163673728000,
xm 12 5 [2,2,3] 129729600,
xm 12 5 [1,3,3] 129729600,
xm 12 5 [1,2,4] 259459200,
xm 12 5 [1,1,5] 129729600,
xm 12 5 [4,5] 129729600000,
xm 12 5 [3,6] 160345785600,
xm 12 5 [2,7] 226767340800,
xm 12 5 [1,8] 339372633600,
xp 12 5 [11] 467493586560000,
xp 13 5 [2,3,3] 129729600,
xp 13 5 [2,2,4] 129729600,
xp 13 5 [1,3,4] 259459200,
xp 13 5 [1,2,5] 259459200,
xp 13 5 [1,1,6] 129729600,
xp 13 5 [5,5] 93405312000,
xp 13 5 [4,6] 204972768000,
xp 13 5 [3,7] 262053792000,
xp 13 5 [2,8] 365837472000,
xp 13 5 [1,9] 529296768000,
xm 13 5 [12] 934987173120000,
xm 14 5 [3,3,3] 43243200,
xm 14 5 [2,3,4] 259459200,
xm 14 5 [1,4,4] 129729600,
xm 14 5 [2,2,5] 129729600,
xm 14 5 [1,3,5] 259459200,
xm 14 5 [1,2,6] 259459200,
xm 14 5 [1,1,7] 129729600,
xm 14 5 [5,6] 272432160000,
xm 14 5 [4,7] 316367251200,
xm 14 5 [3,8] 409426617600,
xm 14 5 [2,9] 561988627200,
xm 14 5 [1,10] 789620832000,
xp 14 5 [13] 1766086882560000,
xp 15 5 [3,3,4] 129729600,
xp 15 5 [2,4,4] 129729600,
xp 15 5 [2,3,5] 259459200,
xp 15 5 [1,4,5] 259459200,
xp 15 5 [2,2,6] 129729600,
xp 15 5 [1,3,6] 259459200,
xp 15 5 [1,2,7] 259459200,
xp 15 5 [1,1,8] 129729600,
xp 15 5 [6,6] 185253868800,
xp 15 5 [5,7] 395934739200,
xp 15 5 [4,8] 474810336000,
xp 15 5 [3,9] 614918304000,
xp 15 5 [2,10] 829231603200,
xp 15 5 [1,11] 1135912377600,
xm 15 5 [14] 3178956388608000,
xm 16 5 [3,4,4] 129729600,
xm 16 5 [3,3,5] 129729600,
xm 16 5 [2,4,5] 259459200,
xm 16 5 [1,5,5] 129729600,
xm 16 5 [2,3,6] 259459200,
xm 16 5 [1,4,6] 259459200,
xm 16 5 [2,2,7] 129729600,
xm 16 5 [1,3,7] 259459200,
xm 16 5 [1,2,8] 259459200,
xm 16 5 [1,1,9] 129729600,
xm 16 5 [6,7] 508540032000,
xm 16 5 [5,8] 568215648000,
xm 16 5 [4,9] 692756064000,
xm 16 5 [3,10] 892539648000,
xm 16 5 [2,11] 1183133952000,
xm 16 5 [1,12] 1585295712000,
xp 16 5 [15] 5490924671232000,
xp 17 5 [4,4,4] 43243200,
xp 17 5 [3,4,5] 259459200,
xp 17 5 [2,5,5] 129729600,
xp 17 5 [3,3,6] 129729600,
xp 17 5 [2,4,6] 259459200,
xp 17 5 [1,5,6] 259459200,
xp 17 5 [2,3,7] 259459200,
xp 17 5 [1,4,7] 259459200,
xp 17 5 [2,2,8] 129729600,
xp 17 5 [1,3,8] 259459200,
xp 17 5 [1,2,9] 259459200,
xp 17 5 [1,1,10] 129729600,
xp 17 5 [7,7] 331761830400,
xp 17 5 [6,8] 697426329600,
xp 17 5 [5,9] 801728928000,
xp 17 5 [4,10] 984215232000,
xp 17 5 [3,11] 1257858201600,
xp 17 5 [2,12] 1640819980800,
xp 17 5 [1,13] 2156451897600,
xm 18 5 [4,4,5] 129729600,
xm 18 5 [3,5,5] 129729600,
xm 18 5 [3,4,6] 259459200,
xm 18 5 [2,5,6] 259459200,
xm 18 5 [1,6,6] 129729600,
xm 18 5 [3,3,7] 129729600,
xm 18 5 [2,4,7] 259459200,
xm 18 5 [1,5,7] 259459200,
xm 18 5 [2,3,8] 259459200,
xm 18 5 [1,4,8] 259459200,
xm 18 5 [2,2,9] 129729600,
xm 18 5 [1,3,9] 259459200,
xm 18 5 [1,2,10] 259459200,
xm 18 5 [1,1,11] 129729600,
xm 18 5 [7,8] 871782912000,
xm 18 5 [6,9] 949620672000,
xm 18 5 [5,10] 1110485376000,
xm 18 5 [4,11] 1364755392000,
xm 18 5 [3,12] 1727998272000,
xm 18 5 [2,13] 2220970752000,
xm 18 5 [1,14] 2869618752000,
xp 6 6 [1,2] 1037836800,
xm 6 6 [5] 326918592000,
xm 7 6 [2,2] 3113510400,
xm 7 6 [1,3] 10378368000,
xp 7 6 [6] 3596104512000,
xp 8 6 [1,1,1] 129729600,
xp 8 6 [2,3] 26983756800,
xp 8 6 [1,4] 51891840000,
xm 8 6 [7] 21576627072000,
xm 9 6 [1,1,2] 648648000,
xm 9 6 [3,3] 36324288000,
xm 9 6 [2,4] 93405312000,
xm 9 6 [1,5] 181621440000,
xp 9 6 [8] 93498717312000,
xp 10 6 [1,2,2] 908107200,
xp 10 6 [1,1,3] 1037836800,
xp 10 6 [3,4] 186810624000,
xp 10 6 [2,5] 269837568000,
xp 10 6 [1,6] 508540032000,
xm 10 6 [9] 327245510592000,
xm 11 6 [2,2,2] 389188800,
xm 11 6 [1,2,3] 2594592000,
xm 11 6 [1,1,4] 1556755200,
xm 11 6 [4,4] 191999808000,
xm 11 6 [3,5] 446269824000,
xm 11 6 [2,6] 675631756800,
xm 11 6 [1,7] 1220496076800,
xp 11 6 [10] 981736531776000,
xp 12 6 [2,2,3] 1556755200,
xp 12 6 [1,3,3] 1686484800,
xp 12 6 [1,2,4] 3632428800,
xp 12 6 [1,1,5] 2205403200,
xp 12 6 [4,5] 778377600000,
xp 12 6 [3,6] 985944960000,
xp 12 6 [2,7] 1511090380800,
xp 12 6 [1,8] 2615348736000,
xm 12 6 [11] 2617964084736000,
xm 13 6 [2,3,3] 1945944000,
xm 13 6 [2,2,4] 2075673600,
xm 13 6 [1,3,4] 4410806400,
xm 13 6 [1,2,5] 4929724800,
xm 13 6 [1,1,6] 2983780800,
xm 13 6 [5,5] 690161472000,
xm 13 6 [4,6] 1525620096000,
xm 13 6 [3,7] 2024819596800,
xm 13 6 [2,8] 3088602316800,
xm 13 6 [1,9] 5137292160000,
xp 13 6 [12] 6357912777216000,
xp 14 6 [3,3,3] 778377600,
xp 14 6 [2,3,4] 4929724800,
xp 14 6 [1,4,4] 2724321600,
xp 14 6 [2,2,5] 2724321600,
xp 14 6 [1,3,5] 5708102400,
xp 14 6 [1,2,6] 6486480000,
xp 14 6 [1,1,7] 3891888000,
xp 14 6 [5,6] 2433727296000,
xp 14 6 [4,7] 2869618752000,
xp 14 6 [3,8] 3897077184000,
xp 14 6 [2,9] 5868967104000,
xp 14 6 [1,10] 9418368960000,
xm 14 6 [13] 14305303748736000,
xm 15 6 [3,3,4] 2854051200,
xm 15 6 [2,4,4] 2983780800,
xm 15 6 [2,3,5] 6227020800,
xm 15 6 [1,4,5] 6745939200,
xm 15 6 [2,2,6] 3502699200,
xm 15 6 [1,3,6] 7264857600,
xm 15 6 [1,2,7] 8302694400,
xm 15 6 [1,1,8] 4929724800,
xm 15 6 [6,6] 1961511552000,
xm 15 6 [5,7] 4213617408000,
xm 15 6 [4,8] 5173616448000,
xm 15 6 [3,9] 7088425344000,
xm 15 6 [2,10] 10502908416000,
xm 15 6 [1,11] 16325172864000,
xp 15 6 [14] 30200085691776000,
xp 16 6 [3,4,4] 3372969600,
xp 16 6 [3,3,5] 3502699200,
xp 16 6 [2,4,5] 7264857600,
xp 16 6 [1,5,5] 4021617600,
xp 16 6 [2,3,6] 7783776000,
xp 16 6 [1,4,6] 8302694400,
xp 16 6 [2,2,7] 4410806400,
xp 16 6 [1,3,7] 9081072000,
xp 16 6 [1,2,8] 10378368000,
xp 16 6 [1,1,9] 6097291200,
xp 16 6 [6,7] 6305896396800,
xp 16 6 [5,8] 7119560448000,
xp 16 6 [4,9] 8956531584000,
xp 16 6 [3,10] 12277609344000,
xp 16 6 [2,11] 17877776716800,
xp 16 6 [1,12] 27010740556800,
xm 16 6 [15] 60400171383552000,
xm 17 6 [4,4,4] 1297296000,
xm 17 6 [3,4,5] 8043235200,
xm 17 6 [2,5,5] 4281076800,
xm 17 6 [3,3,6] 4281076800,
xm 17 6 [2,4,6] 8821612800,
xm 17 6 [1,5,6] 9599990400,
xm 17 6 [2,3,7] 9599990400,
xm 17 6 [1,4,7] 10118908800,
xm 17 6 [2,2,8] 5448643200,
xm 17 6 [1,3,8] 11156745600,
xm 17 6 [1,2,9] 12713500800,
xm 17 6 [1,1,10] 7394587200,
xm 17 6 [7,7] 4751216870400,
xm 17 6 [6,8] 10025503488000,
xm 17 6 [5,9] 11711988288000,
xm 17 6 [4,10] 14934471552000,
xm 17 6 [3,11] 20383114752000,
xm 17 6 [2,12] 29169441100800,
xm 17 6 [1,13] 42971632704000,
xp 18 6 [4,4,5] 4540536000,
xp 18 6 [3,5,5] 4670265600,
xp 18 6 [3,4,6] 9599990400,
xp 18 6 [2,5,6] 10118908800,
xp 18 6 [1,6,6] 5578372800,
xp 18 6 [3,3,7] 5189184000,
xp 18 6 [2,4,7] 10637827200,
xp 18 6 [1,5,7] 11416204800,
xp 18 6 [2,3,8] 11675664000,
xp 18 6 [1,4,8] 12194582400,
xp 18 6 [2,2,9] 6616209600,
xp 18 6 [1,3,9] 13491878400,
xp 18 6 [1,2,10] 15308092800,
xp 18 6 [1,1,11] 8821612800]
def extC2_1 : PL := [
xp 18 6 [7,8] 14297239756800,
xp 18 6 [6,9] 15692092416000,
xp 18 6 [5,10] 18753710976000,
xp 18 6 [4,11] 24067435392000,
xp 18 6 [3,12] 32615059276800,
xp 18 6 [2,13] 45899370316800,
xp 18 6 [1,14] 66110204160000,
xp 7 7 [2,2] 1245404160,
xp 7 7 [1,3] 3632428800,
xm 7 7 [6] 1438441804800,
xm 8 7 [1,1,1] 129729600,
xm 8 7 [2,3] 23351328000,
xm 8 7 [1,4] 43589145600,
xp 8 7 [7] 18699743462400,
xp 9 7 [1,1,2] 1167566400,
xp 9 7 [3,3] 52929676800,
xp 9 7 [2,4] 131805273600,
xp 9 7 [1,5] 265167302400,
xm 9 7 [8] 130898204236800,
xm 10 7 [1,2,2] 2464862400,
xm 10 7 [1,1,3] 2983780800,
xm 10 7 [3,4] 393859065600,
xm 10 7 [2,5] 555761606400,
xm 10 7 [1,6] 1122420499200,
xp 10 7 [9] 654491021184000,
xp 11 7 [2,2,2] 1427025600,
xp 11 7 [1,2,3] 10118908800,
xp 11 7 [1,1,4] 6616209600,
xp 11 7 [4,4] 552648096000,
xp 11 7 [3,5] 1264085222400,
xp 11 7 [2,6] 1907025120000,
xp 11 7 [1,7] 3759563808000,
xm 11 7 [10] 2617964084736000,
xm 12 7 [2,2,3] 7654046400,
xm 12 7 [1,3,3] 8821612800,
xm 12 7 [1,2,4] 19459440000,
xm 12 7 [1,1,5] 13102689600,
xm 12 7 [4,5] 2887780896000,
xm 12 7 [3,6] 3596104512000,
xm 12 7 [2,7] 5599025752320,
xm 12 7 [1,8] 10668443385600,
xp 12 7 [11] 8901077888102400,
xp 13 7 [2,3,3] 12194582400,
xp 13 7 [2,2,4] 13362148800,
xp 13 7 [1,3,4] 30097267200,
xp 13 7 [1,2,5] 35026992000,
xp 13 7 [1,1,6] 23740516800,
xp 13 7 [5,5] 3214699488000,
xp 13 7 [4,6] 7036014585600,
xp 13 7 [3,7] 9244531296000,
xp 13 7 [2,8] 14547877344000,
xp 13 7 [1,9] 26731043539200,
xm 13 7 [12] 26703233664307200,
xm 14 7 [3,3,3] 5967561600,
xm 14 7 [2,3,4] 38918880000,
xm 14 7 [1,4,4] 23351328000,
xm 14 7 [2,2,5] 22443220800,
xm 14 7 [1,3,5] 49556707200,
xm 14 7 [1,2,6] 59416156800,
xm 14 7 [1,1,7] 40086446400,
xm 14 7 [5,6] 13795964582400,
xm 14 7 [4,7] 16062600153600,
xm 14 7 [3,8] 21805470086400,
xm 14 7 [2,9] 34265738707200,
xm 14 7 [1,10] 60774166252800,
xp 14 7 [13] 72480205660262400,
xp 15 7 [3,3,4] 26724297600,
xp 15 7 [2,4,4] 28799971200,
xp 15 7 [2,3,5] 60972912000,
xp 15 7 [1,4,5] 71351280000,
xp 15 7 [2,2,6] 36194558400,
xp 15 7 [1,3,6] 78616137600,
xp 15 7 [1,2,7] 95740444800,
xp 15 7 [1,1,8] 63956692800,
xp 15 7 [6,6] 13327381267200,
xp 15 7 [5,7] 28434652646400,
xp 15 7 [4,8] 34551662745600,
xp 15 7 [3,9] 47786157619200,
xp 15 7 [2,10] 74473612012800,
xp 15 7 [1,11] 127781580326400,
xm 15 7 [14] 181200514150656000,
xm 16 7 [3,4,4] 37621584000,
xm 16 7 [3,3,5] 39697257600,
xm 16 7 [2,4,5] 84843158400,
xm 16 7 [1,5,5] 51243192000,
xm 16 7 [2,3,6] 93145852800,
xm 16 7 [1,4,6] 106637731200,
xm 16 7 [2,2,7] 56172916800,
xm 16 7 [1,3,7] 120389068800,
xm 16 7 [1,2,8] 147632284800,
xm 16 7 [1,1,9] 97426929600,
xm 16 7 [6,7] 50345463168000,
xm 16 7 [5,8] 56295381542400,
xm 16 7 [4,9] 70430199840000,
xm 16 7 [3,10] 98304939532800,
xm 16 7 [2,11] 151378875648000,
xm 16 7 [1,12] 251927099424000,
xp 16 7 [15] 422801199684864000,
xp 17 7 [4,4,4] 16864848000,
xp 17 7 [3,4,5] 106378272000,
xp 17 7 [2,5,5] 59286427200,
xp 17 7 [3,3,6] 58118860800,
xp 17 7 [2,4,6] 123243120000,
xp 17 7 [1,5,6] 145556611200,
xp 17 7 [2,3,7] 138551212800,
xp 17 7 [1,4,7] 155675520000,
xp 17 7 [2,2,8] 84194510400,
xp 17 7 [1,3,8] 178507929600,
xp 17 7 [1,2,9] 219243024000,
xp 17 7 [1,1,10] 142832289600,
xp 17 7 [7,7] 44127471548160,
xp 17 7 [6,8] 92648728972800,
xp 17 7 [5,9] 107229298176000,
xp 17 7 [4,10] 136784295648000,
xp 17 7 [3,11] 191466878803200,
xp 17 7 [2,12] 290781010840320,
xp 17 7 [1,13] 470610210470400,
xm 18 7 [4,4,5] 68756688000,
xm 18 7 [3,5,5] 71999928000,
xm 18 7 [3,4,6] 149448499200,
xm 18 7 [2,5,6] 164756592000,
xm 18 7 [1,6,6] 98983684800,
xm 18 7 [3,3,7] 83545862400,
xm 18 7 [2,4,7] 175913337600,
xm 18 7 [1,5,7] 203675472000,
xm 18 7 [2,3,8] 200821420800,
xm 18 7 [1,4,8] 222097075200,
xm 18 7 [2,2,9] 122335012800,
xm 18 7 [1,3,9] 257124067200,
xm 18 7 [1,2,10] 315242928000,
xm 18 7 [1,1,11] 202767364800,
xm 18 7 [7,8] 152344063872000,
xm 18 7 [6,9] 165943877299200,
xm 18 7 [5,10] 196950289536000,
xm 18 7 [4,11] 254365496985600,
xm 18 7 [3,12] 355578455232000,
xm 18 7 [2,13] 532187143488000,
xm 18 7 [1,14] 839694035980800,
xp 8 8 [1,1,1] 43243200,
xp 8 8 [2,3] 7783776000,
xp 8 8 [1,4] 13318905600,
xm 8 8 [7] 6233247820800,
xm 9 8 [1,1,2] 908107200,
xm 9 8 [3,3] 38918880000,
xm 9 8 [2,4] 94443148800,
xm 9 8 [1,5] 185253868800,
xp 9 8 [8] 93498717312000,
xp 10 8 [1,2,2] 3243240000,
xp 10 8 [1,1,3] 4021617600,
xp 10 8 [3,4] 469102233600,
xp 10 8 [2,5] 642939897600,
xp 10 8 [1,6] 1318571654400,
xm 10 8 [9] 747989738496000,
xm 11 8 [2,2,2] 2724321600,
xm 11 8 [1,2,3] 19978358400,
xm 11 8 [1,1,4] 13621608000,
xm 11 8 [4,4] 950485536000,
xm 11 8 [3,5] 2146765420800,
xm 11 8 [2,6] 3171110342400,
xm 11 8 [1,7] 6512944838400,
xp 11 8 [10] 4238608518144000,
xp 12 8 [2,2,3] 20108088000,
xp 12 8 [1,3,3] 24129705600,
xp 12 8 [1,2,4] 53708054400,
xp 12 8 [1,1,5] 38270232000,
xp 12 8 [4,5] 6640079846400,
xp 12 8 [3,6] 8129375654400,
xp 12 8 [2,7] 12542776646400,
xp 12 8 [1,8] 25292601734400,
xm 12 8 [11] 19073738331648000,
xm 13 8 [2,3,3] 41772931200,
xm 13 8 [2,2,4] 46313467200,
xm 13 8 [1,3,4] 108972864000,
xm 13 8 [1,2,5] 128951222400,
xm 13 8 [1,1,6] 93535041600,
xm 13 8 [5,5] 9491536454400,
xm 13 8 [4,6] 20614033440000,
xm 13 8 [3,7] 26654762534400,
xm 13 8 [2,8] 42074422790400,
xm 13 8 [1,9] 82590533625600,
xp 13 8 [12] 72480205660262400,
xp 14 8 [3,3,3] 25556731200,
xp 14 8 [2,3,4] 169167398400,
xp 14 8 [1,4,4] 107675568000,
xp 14 8 [2,2,5] 99502603200,
xp 14 8 [1,3,5] 229621392000,
xp 14 8 [1,2,6] 282032150400,
xp 14 8 [1,1,7] 205232227200,
xp 14 8 [5,6] 50432641459200,
xp 14 8 [4,7] 58048633843200,
xp 14 8 [3,8] 77872008614400,
xp 14 8 [2,9] 124065605664000,
xp 14 8 [1,10] 236343979872000,
xm 14 8 [13] 241600685534208000,
xm 15 8 [3,3,4] 140756616000,
xm 15 8 [2,4,4] 154378224000,
xm 15 8 [2,3,5] 328734806400,
xm 15 8 [1,4,5] 408648240000,
xm 15 8 [2,2,6] 200432232000,
xm 15 8 [1,3,6] 454313059200,
xm 15 8 [1,2,7] 570810240000,
xm 15 8 [1,1,8] 413318505600,
xm 15 8 [6,6] 59074189574400,
xm 15 8 [5,7] 125373280032000,
xm 15 8 [4,8] 150491525184000,
xm 15 8 [3,9] 206827382361600,
xm 15 8 [2,10] 329694286521600,
xm 15 8 [1,11] 609299974483200,
xp 15 8 [14] 724802056602624000,
xp 16 8 [3,4,4] 238053816000,
xp 16 8 [3,3,5] 252972720000,
xp 16 8 [2,4,5] 551350800000,
xp 16 8 [1,5,5] 356107752000,
xp 16 8 [2,3,6] 611545334400,
xp 16 8 [1,4,6] 743350608000,
xp 16 8 [2,2,7] 381145564800,
xp 16 8 [1,3,7] 850247798400,
xp 16 8 [1,2,8] 1082463782400,
xp 16 8 [1,1,9] 776431656000,
xp 16 8 [6,7] 264771367660800,
xp 16 8 [5,8] 293605587475200,
xp 16 8 [4,9] 363326425862400,
xp 16 8 [3,10] 506965114656000,
xp 16 8 [2,11] 804088968883200,
xp 16 8 [1,12] 1442996870515200,
xm 16 8 [15] 1993205655657216000,
xm 17 8 [4,4,4] 125621496000,
xm 17 8 [3,4,5] 799134336000,
xm 17 8 [2,5,5] 458594136000,
xm 17 8 [3,3,6] 441859017600,
xm 17 8 [2,4,6] 956626070400,
xm 17 8 [1,5,6] 1207782576000,
xm 17 8 [2,3,7] 1091025936000,
xm 17 8 [1,4,7] 1299112214400,
xm 17 8 [2,2,8] 688864176000,
xm 17 8 [1,3,8] 1515501187200,
xm 17 8 [1,2,9] 1942571030400,
xm 17 8 [1,1,10] 1377079704000,
xm 17 8 [7,7] 271807382246400,
xm 17 8 [6,8] 568478739628800,
xm 17 8 [5,9] 651679521292800,
xm 17 8 [4,10] 824371759411200,
xm 17 8 [3,11] 1160274558643200,
xm 17 8 [2,12] 1824783299539200,
xm 17 8 [1,13] 3184843344883200,
xp 18 8 [4,4,5] 598053456000,
xp 18 8 [3,5,5] 632431800000,
xp 18 8 [3,4,6] 1318052736000,
xp 18 8 [2,5,6] 1498895798400,
xp 18 8 [1,6,6] 965317953600,
xp 18 8 [3,3,7] 748799251200,
xp 18 8 [2,4,7] 1610463254400,
xp 18 8 [1,5,7] 1990570982400,
xp 18 8 [2,3,8] 1872517046400,
xp 18 8 [1,4,8] 2188538352000,
xp 18 8 [2,2,9] 1190528539200,
xp 18 8 [1,3,9] 2588105520000,
xp 18 8 [1,2,10] 3325488566400,
xp 18 8 [1,1,11] 2327478753600,
xp 18 8 [7,8] 1083103089868800,
xp 18 8 [6,9] 1172330070912000,
xp 18 8 [5,10] 1378332373017600,
xp 18 8 [4,11] 1771121428876800,
xp 18 8 [3,12] 2502649000051200,
xp 18 8 [2,13] 3894741013363200,
xp 18 8 [1,14] 6622825809600000,
xp 9 9 [1,1,2] 259459200,
xp 9 9 [3,3] 11119680000,
xp 9 9 [2,4] 26983756800,
xp 9 9 [1,5] 49816166400,
xm 9 9 [8] 26713919232000,
xm 10 9 [1,2,2] 2075673600,
xm 10 9 [1,1,3] 2594592000,
xm 10 9 [3,4] 290594304000,
xm 10 9 [2,5] 392302310400,
xm 10 9 [1,6] 787718131200,
xp 10 9 [9] 454136626944000,
xp 11 9 [2,2,2] 2854051200,
xp 11 9 [1,2,3] 21275654400,
xp 11 9 [1,1,4] 14789174400,
xp 11 9 [4,4] 949620672000,
xp 11 9 [3,5] 2135868134400,
xp 11 9 [2,6] 3097942848000,
xp 11 9 [1,7] 6404490892800,
xm 11 9 [10] 4087229642496000,
xm 12 9 [2,2,3] 30616185600,
xm 12 9 [1,3,3] 37621584000,
xm 12 9 [1,2,4] 84064780800,
xm 12 9 [1,1,5] 61751289600,
xm 12 9 [4,5] 9444314880000,
xm 12 9 [3,6] 11467058803200,
xm 12 9 [2,7] 17432544729600,
xm 12 9 [1,8] 36063790963200,
xp 12 9 [11] 25885787735808000,
xp 13 9 [2,3,3] 85880995200,
xp 13 9 [2,2,4] 95740444800,
xp 13 9 [1,3,4] 231956524800,
xp 13 9 [1,2,5] 276583507200,
xp 13 9 [1,1,6] 208864656000,
xp 13 9 [5,5] 17964955008000,
xp 13 9 [4,6] 38899161100800,
xp 13 9 [3,7] 49775690764800,
xp 13 9 [2,8] 77915597760000,
xp 13 9 [1,9] 158947819430400,
xm 13 9 [12] 129428938679040000,
xm 14 9 [3,3,3] 67459392000,
xm 14 9 [2,3,4] 449902252800,
xm 14 9 [1,4,4] 298118620800,
xm 14 9 [2,2,5] 267242976000,
xm 14 9 [1,3,5] 637231795200,
xm 14 9 [1,2,6] 791869478400,
xm 14 9 [1,1,7] 604799395200,
xm 14 9 [5,6] 121311705715200,
xm 14 9 [4,7] 138871904371200,
xm 14 9 [3,8] 184360291315200,
xm 14 9 [2,9] 293407879564800,
xm 14 9 [1,10] 585925295155200,
xp 14 9 [13] 543601542451968000,
xp 15 9 [3,3,4] 463653590400,
xp 15 9 [2,4,4] 513469756800,
xp 15 9 [2,3,5] 1096474579200,
xp 15 9 [1,4,5] 1424431008000,
xp 15 9 [2,2,6] 677966889600,
xp 15 9 [1,3,6] 1590484896000,
xp 15 9 [1,2,7] 2030527699200,
xp 15 9 [1,1,8] 1552863312000,
xp 15 9 [6,6] 175206570739200,
xp 15 9 [5,7] 371027693836800,
xp 15 9 [4,8] 442233676684800,
xp 15 9 [3,9] 602467375910400,
xp 15 9 [2,10] 966153412224000,
xp 15 9 [1,11] 1882440841881600,
xm 15 9 [14] 1993205655657216000,
xm 16 9 [3,4,4] 953253100800,
xm 16 9 [3,3,5] 1016561145600,
xm 16 9 [2,4,5] 2241727488000,
xm 16 9 [1,5,5] 1521987667200,
xm 16 9 [2,3,6] 2499111014400,
xm 16 9 [1,4,6] 3182007628800,
xm 16 9 [2,2,7] 1586074089600,
xm 16 9 [1,3,7] 3662785526400,
xm 16 9 [1,2,8] 4759000646400,
xm 16 9 [1,1,9] 3621790972800,
xm 16 9 [6,7] 944707552588800,
xm 16 9 [5,8] 1043502351091200,
xm 16 9 [4,9] 1281411907776000,
xm 16 9 [3,10] 1777238883763200,
xm 16 9 [2,11] 2853937037952000,
xm 16 9 [1,12] 5419363748198400,
xp 16 9 [15] 6549104297159424000,
xp 17 9 [4,4,4] 598572374400,
xp 17 9 [3,4,5] 3824428608000,
xp 17 9 [2,5,5] 2234203171200,
xp 17 9 [3,3,6] 2127565440000,
xp 17 9 [2,4,6] 4668708844800,
xp 17 9 [1,5,6] 6207820819200,
xp 17 9 [2,3,7] 5363281123200,
xp 17 9 [1,4,7] 6696382492800,
xp 17 9 [2,2,8] 3461964105600,
xp 17 9 [1,3,8] 7878478608000,
xp 17 9 [1,2,9] 10349308569600,
xp 17 9 [1,1,10] 7808684083200,
xp 17 9 [7,7] 1146547091289600,
xp 17 9 [6,8] 2394027962726400,
xp 17 9 [5,9] 2730315107520000,
xp 17 9 [4,10] 3428286301440000,
xp 17 9 [3,11] 4812067317657600,
xp 17 9 [2,12] 7704294306508800,
xp 17 9 [1,13] 14259890086041600,
xm 18 9 [4,4,5] 3347542598400,
xm 18 9 [3,5,5] 3558742387200,
xm 18 9 [3,4,6] 7431949324800,
xm 18 9 [2,5,6] 8623385971200,
xm 18 9 [1,6,6] 5866372512000,
xm 18 9 [3,3,7] 4257984931200,
xm 18 9 [2,4,7] 9294606921600,
xm 18 9 [1,5,7] 12110517619200,
xm 18 9 [2,3,8] 10909480982400,
xm 18 9 [1,4,8] 13369673116800,
xm 18 9 [2,2,9] 7117225315200,
xm 18 9 [1,3,9] 15982167801600,
xm 18 9 [1,2,10] 21125686982400,
xm 18 9 [1,1,11] 15768632880000,
xm 18 9 [7,8] 5317850855116800,
xm 18 9 [6,9] 5738971817779200,
xm 18 9 [5,10] 6707933616384000,
xm 18 9 [4,11] 8564185684454400,
xm 18 9 [3,12] 12111200515814400,
xm 18 9 [2,13] 19275576832512000,
xm 18 9 [1,14] 34802003511475200,
xp 10 10 [1,2,2] 518918400,
xp 10 10 [1,1,3] 648648000,
xp 10 10 [3,4] 72648576000,
xp 10 10 [2,5] 98075577600,
xp 10 10 [1,6] 188367379200,
xm 10 10 [9] 113534156736000,
xm 11 10 [2,2,2] 1556755200,
xm 11 10 [1,2,3] 11675664000,
xm 11 10 [1,1,4] 8172964800,
xm 11 10 [4,4] 508540032000]
def extC2_2 : PL := [
xm 11 10 [3,5] 1144215072000,
xm 11 10 [2,6] 1643933491200,
xm 11 10 [1,7] 3339239904000,
xp 11 10 [10] 2157148977984000,
xp 12 10 [2,2,3] 27113486400,
xp 12 10 [1,3,3] 33729696000,
xp 12 10 [1,2,4] 75502627200,
xp 12 10 [1,1,5] 56302646400,
xp 12 10 [4,5] 8082154080000,
xp 12 10 [3,6] 9793546963200,
xp 12 10 [2,7] 14709779884800,
xp 12 10 [1,8] 30498391123200,
xm 12 10 [11] 21571489779840000,
xm 13 10 [2,3,3] 108972864000,
xm 13 10 [2,2,4] 121816094400,
xm 13 10 [1,3,4] 300453753600,
xm 13 10 [1,2,5] 359610451200,
xm 13 10 [1,1,6] 277880803200,
xm 13 10 [5,5] 21740086368000,
xm 13 10 [4,6] 47052925920000,
xm 13 10 [3,7] 59935075200000,
xm 13 10 [2,8] 92830869331200,
xm 13 10 [1,9] 192562834464000,
xp 13 10 [12] 151000428458880000,
xp 14 10 [3,3,3] 114162048000,
xp 14 10 [2,3,4] 764366803200,
xp 14 10 [1,4,4] 519956236800,
xp 14 10 [2,2,5] 456388732800,
xp 14 10 [1,3,5] 1112820508800,
xp 14 10 [1,2,6] 1391220230400,
xp 14 10 [1,1,7] 1095177283200,
xp 14 10 [5,6] 193909427712000,
xp 14 10 [4,7] 221638351334400,
xp 14 10 [3,8] 292414669747200,
xp 14 10 [2,9] 462150802713600,
xp 14 10 [1,10] 948344132736000,
xm 14 10 [13] 830502356523840000,
xm 15 10 [3,3,4] 1002550348800,
xm 15 10 [2,4,4] 1116193478400,
xm 15 10 [2,3,5] 2387284099200,
xm 15 10 [1,4,5] 3198353558400,
xm 15 10 [2,2,6] 1487479593600,
xm 15 10 [1,3,6] 3579758582400,
xm 15 10 [1,2,7] 4609552147200,
xm 15 10 [1,1,8] 3656039587200,
xm 15 10 [6,6] 354085526995200,
xm 15 10 [5,7] 749476439712000,
xm 15 10 [4,8] 890806460544000,
xm 15 10 [3,9] 1205465605344000,
xm 15 10 [2,10] 1928522352556800,
xm 15 10 [1,11] 3890437104153600,
xp 15 10 [14] 3820310840009664000,
xp 16 10 [3,4,4] 2548927180800,
xp 16 10 [3,3,5] 2723543222400,
xp 16 10 [2,4,5] 6047215574400,
xp 16 10 [1,5,5] 4257206553600,
xp 16 10 [2,3,6] 6760728374400,
xp 16 10 [1,4,6] 8908531632000,
xp 16 10 [2,2,7] 4335303772800,
xp 16 10 [1,3,7] 10290670790400,
xp 16 10 [1,2,8] 13523532422400,
xp 16 10 [1,1,9] 10728378460800,
xp 16 10 [6,7] 2340069270739200,
xp 16 10 [5,8] 2581792877664000,
xp 16 10 [4,9] 3158150355360000,
xp 16 10 [3,10] 4353255754848000,
xp 16 10 [2,11] 7007061014553600,
xp 16 10 [1,12] 13851167121792000,
xm 16 10 [15] 15281243360038656000,
xm 17 10 [4,4,4] 1930376448000,
xm 17 10 [3,4,5] 12363749798400,
xm 17 10 [2,5,5] 7301181888000,
xm 17 10 [3,3,6] 6901874179200,
xm 17 10 [2,4,6] 15272546889600,
xm 17 10 [1,5,6] 21118941043200,
xm 17 10 [2,3,7] 17616241843200,
xm 17 10 [1,4,7] 22818917721600,
xm 17 10 [2,2,8] 11520766857600,
xm 17 10 [1,3,8] 26973897350400,
xm 17 10 [1,2,9] 35943920812800,
xm 17 10 [1,1,10] 28383539184000,
xm 17 10 [7,7] 3402325851724800,
xm 17 10 [6,8] 7101227579846400,
xm 17 10 [5,9] 8083015484544000,
xm 17 10 [4,10] 10103426869536000,
xm 17 10 [3,11] 14112963530265600,
xm 17 10 [2,12] 22752245009894400,
xm 17 10 [1,13] 44005839150873600,
xp 18 10 [4,4,5] 12799381795200,
xp 18 10 [3,5,5] 13647683649600,
xp 18 10 [3,4,6] 28535322816000,
xp 18 10 [2,5,6] 33534582681600,
xp 18 10 [1,6,6] 23803305926400,
xp 18 10 [3,3,7] 16427918707200,
xp 18 10 [2,4,7] 36211682707200,
xp 18 10 [1,5,7] 49172188665600,
xp 18 10 [2,3,8] 42730854566400,
xp 18 10 [1,4,8] 54413783424000,
xp 18 10 [2,2,9] 28321268976000,
xp 18 10 [1,3,9] 65438983209600,
xp 18 10 [1,2,10] 88001814700800,
xp 18 10 [1,1,11] 68955304017600,
xp 18 10 [7,8] 18565762882867200,
xp 18 10 [6,9] 20017972630656000,
xp 18 10 [5,10] 23335293421440000,
xp 18 10 [4,11] 29652450347520000,
xp 18 10 [3,12] 41807283598080000,
xp 18 10 [2,13] 67280341281753600,
xp 18 10 [1,14] 127271789701056000,
xp 11 11 [2,2,2] 345945600,
xp 11 11 [1,2,3] 2594592000,
xp 11 11 [1,1,4] 1816214400,
xp 11 11 [4,4] 113008896000,
xp 11 11 [3,5] 254270016000,
xp 11 11 [2,6] 365318553600,
xp 11 11 [1,7] 717318201600,
xm 11 11 [10] 479366439552000,
xm 12 11 [2,2,3] 12972960000,
xm 12 11 [1,3,3] 16216200000,
xm 12 11 [1,2,4] 36324288000,
xm 12 11 [1,1,5] 27243216000,
xm 12 11 [4,5] 3814050240000,
xm 12 11 [3,6] 4623562944000,
xm 12 11 [2,7] 6901095801600,
xm 12 11 [1,8] 14099012928000,
xp 12 11 [11] 10066695230592000,
xp 13 11 [2,3,3] 83675592000,
xp 13 11 [2,2,4] 93664771200,
xp 13 11 [1,3,4] 233253820800,
xp 13 11 [1,2,5] 279697017600,
xp 13 11 [1,1,6] 218724105600,
xp 13 11 [5,5] 16273281024000,
xp 13 11 [4,6] 35229370176000,
xp 13 11 [3,7] 44831436249600,
xp 13 11 [2,8] 68862547353600,
xp 13 11 [1,9] 142845262560000,
xm 13 11 [12] 110733647536512000,
xm 14 11 [3,3,3] 124324200000,
xm 14 11 [2,3,4] 834161328000,
xm 14 11 [1,4,4] 576648072000,
xm 14 11 [2,2,5] 499458960000,
xm 14 11 [1,3,5] 1235025792000,
xm 14 11 [1,2,6] 1548971424000,
xm 14 11 [1,1,7] 1241512272000,
xm 14 11 [5,6] 203997201408000,
xm 14 11 [4,7] 233175983040000,
xm 14 11 [3,8] 306839044512000,
xm 14 11 [2,9] 481221572832000,
xm 14 11 [1,10] 998680082400000,
xp 14 11 [13] 848957964446592000,
xp 15 11 [3,3,4] 1447652606400,
xp 15 11 [2,4,4] 1616560545600,
xp 15 11 [2,3,5] 3460666809600,
xp 15 11 [1,4,5] 4733054726400,
xp 15 11 [2,2,6] 2165705942400,
xp 15 11 [1,3,6] 5304902803200,
xp 15 11 [1,2,7] 6863733676800,
xp 15 11 [1,1,8] 5573961993600,
xp 15 11 [6,6] 489360807936000,
xp 15 11 [5,7] 1035903828960000,
xp 15 11 [4,8] 1230524174880000,
xp 15 11 [3,9] 1658860178976000,
xp 15 11 [2,10] 2639112604128000,
xp 15 11 [1,11] 5430717163872000,
xm 15 11 [14] 5093747786679552000,
xm 16 11 [3,4,4] 4667022360000,
xm 16 11 [3,3,5] 4992643656000,
xm 16 11 [2,4,5] 11129761843200,
xm 16 11 [1,5,5] 8038564934400,
xm 16 11 [2,3,6] 12464419968000,
xm 16 11 [1,4,6] 16830599385600,
xm 16 11 [2,2,7] 8041418985600,
xm 16 11 [1,3,7] 19482791328000,
xm 16 11 [1,2,8] 25772082336000,
xm 16 11 [1,1,9] 21037211395200,
xm 16 11 [6,7] 4068752515027200,
xm 16 11 [5,8] 4488851727360000,
xm 16 11 [4,9] 5483402949024000,
xm 16 11 [3,10] 7525533663648000,
xm 16 11 [2,11] 12081295767340800,
xm 16 11 [1,12] 24519593383084800,
xp 16 11 [15] 25468738933397760000,
xp 17 11 [4,4,4] 4341401064000,
xp 17 11 [3,4,5] 27846977558400,
xp 17 11 [2,5,5] 16552978041600,
xp 17 11 [3,3,6] 15578060097600,
xp 17 11 [2,4,6] 34647662649600,
xp 17 11 [1,5,6] 49319042572800,
xp 17 11 [2,3,7] 40064132908800,
xp 17 11 [1,4,7] 53344292601600,
xp 17 11 [2,2,8] 26409573590400,
xp 17 11 [1,3,8] 63236952979200,
xp 17 11 [1,2,9] 84987936633600,
xp 17 11 [1,1,10] 69344882006400,
xp 17 11 [7,7] 7219326315801600,
xp 17 11 [6,8] 15068419958592000,
xp 17 11 [5,9] 17145227395296000,
xp 17 11 [4,10] 21385605425184000,
xp 17 11 [3,11] 29744835984864000,
xp 17 11 [2,12] 47983319108524800,
xp 17 11 [1,13] 95753446300512000,
xm 18 11 [4,4,5] 34576181640000,
xm 18 11 [3,5,5] 36934536038400,
xm 18 11 [3,4,6] 77283295689600,
xm 18 11 [2,5,6] 91556924659200,
xm 18 11 [1,6,6] 67128840979200,
xm 18 11 [3,3,7] 44625036456000,
xm 18 11 [2,4,7] 98982128044800,
xm 18 11 [1,5,7] 138731796403200,
xm 18 11 [2,3,8] 117184747680000,
xm 18 11 [1,4,8] 153749813817600,
xm 18 11 [2,2,9] 78437889129600,
xm 18 11 [1,3,9] 185576117126400,
xm 18 11 [1,2,10] 252223920748800,
xm 18 11 [1,1,11] 204918022108800,
xm 18 11 [7,8] 47001160177171200,
xm 18 11 [6,9] 50674620892896000,
xm 18 11 [5,10] 59023291463136000,
xm 18 11 [4,11] 74802313089504000,
xm 18 11 [3,12] 105078385040428800,
xm 18 11 [2,13] 169767624567340800,
xm 18 11 [1,14] 332560467439200000,
xp 12 12 [2,2,3] 2594592000,
xp 12 12 [1,3,3] 3243240000,
xp 12 12 [1,2,4] 7264857600,
xp 12 12 [1,1,5] 5448643200,
xp 12 12 [4,5] 762810048000,
xp 12 12 [3,6] 924712588800,
xp 12 12 [2,7] 1380219160320,
xp 12 12 [1,8] 2745597254400,
xm 12 12 [11] 2013339046118400,
xm 13 12 [2,3,3] 35675640000,
xm 13 12 [2,2,4] 39956716800,
xm 13 12 [1,3,4] 99891792000,
xm 13 12 [1,2,5] 119870150400,
xm 13 12 [1,1,6] 94183689600,
xm 13 12 [5,5] 6865290432000,
xm 13 12 [4,6] 14863898649600,
xm 13 12 [3,7] 18922359456000,
xm 13 12 [2,8] 28940079168000,
xm 13 12 [1,9] 59290059628800,
xp 13 12 [12] 46306798060723200,
xp 14 12 [3,3,3] 84324240000,
xp 14 12 [2,3,4] 566399433600,
xp 14 12 [1,4,4] 395026632000,
xp 14 12 [2,2,5] 339632092800,
xp 14 12 [1,3,5] 846355910400,
xp 14 12 [1,2,6] 1063263801600,
xp 14 12 [1,1,7] 860496436800,
xp 14 12 [5,6] 135736599398400,
xp 14 12 [4,7] 155197596153600,
xp 14 12 [3,8] 204138866131200,
xp 14 12 [2,9] 318266665516800,
xp 14 12 [1,10] 659759599699200,
xm 14 12 [13] 555681576728678400,
xm 15 12 [3,3,4] 1384214832000,
xm 15 12 [2,4,4] 1548322776000,
xm 15 12 [2,3,5] 3316407494400,
xm 15 12 [1,4,5] 4595022432000,
xm 15 12 [2,2,6] 2080603324800,
xm 15 12 [1,3,6] 5154416467200,
xm 15 12 [1,2,7] 6687041961600,
xm 15 12 [1,1,8] 5509745841600,
xm 15 12 [6,6] 455266831219200,
xm 15 12 [5,7] 963875879366400,
xm 15 12 [4,8] 1145210876409600,
xm 15 12 [3,9] 1541541550348800,
xm 15 12 [2,10] 2438461388563200,
xm 15 12 [1,11] 5057315937273600,
xp 15 12 [14] 4630679806072320000,
xp 16 12 [3,4,4] 5878048176000,
xp 16 12 [3,3,5] 6292793707200,
xp 16 12 [2,4,5] 14061131884800,
xp 16 12 [1,5,5] 10334259936000,
xp 16 12 [2,3,6] 15764222073600,
xp 16 12 [1,4,6] 21644605382400,
xp 16 12 [2,2,7] 10207254657600,
xp 16 12 [1,3,7] 25087888425600,
xp 16 12 [1,2,8] 33315339657600,
xp 16 12 [1,1,9] 27715691203200,
xp 16 12 [6,7] 4950637211520000,
xp 16 12 [5,8] 5463030731558400,
xp 16 12 [4,9] 6672543381504000,
xp 16 12 [3,10] 9135863556019200,
xp 16 12 [2,11] 14601754046880000,
xp 16 12 [1,12] 30080244081888000,
xm 16 12 [15] 30099418739470080000,
xm 17 12 [4,4,4] 6892533648000,
xm 17 12 [3,4,5] 44252063856000,
xm 17 12 [2,5,5] 26411389804800,
xm 17 12 [3,3,6] 24788861697600,
xm 17 12 [2,4,6] 55305804153600,
xm 17 12 [1,5,6] 80381497996800,
xm 17 12 [2,3,7] 64053471081600,
xm 17 12 [1,4,7] 87000042729600,
xm 17 12 [2,2,8] 42429752164800,
xm 17 12 [1,3,8] 103319507491200,
xm 17 12 [1,2,9] 139580227987200,
xm 17 12 [1,1,10] 116539472649600,
xm 17 12 [7,7] 11005374404344320,
xm 17 12 [6,8] 22973473934611200,
xm 17 12 [5,9] 26144393315040000,
xm 17 12 [4,10] 32590239409728000,
xm 17 12 [3,11] 45199209287232000,
xm 17 12 [2,12] 72734269873224960,
xm 17 12 [1,13] 148148198143545600,
xp 18 12 [4,4,5] 67149986904000,
xp 18 12 [3,5,5] 71813117376000,
xp 18 12 [3,4,6] 150340260470400,
xp 18 12 [2,5,6] 179019583142400,
xp 18 12 [1,6,6] 134474070931200,
xp 18 12 [3,3,7] 86977599508800,
xp 18 12 [2,4,7] 193688627932800,
xp 18 12 [1,5,7] 277988997686400,
xp 18 12 [2,3,8] 229793413449600,
xp 18 12 [1,4,8] 308384642966400,
xp 18 12 [2,2,9] 154778050627200,
xp 18 12 [1,3,9] 373087280966400,
xp 18 12 [1,2,10] 510458473324800,
xp 18 12 [1,1,11] 425864395756800,
xp 18 12 [7,8] 87118428773376000,
xp 18 12 [6,9] 93943464110496000,
xp 18 12 [5,10] 109420584200928000,
xp 18 12 [4,11] 138517162412428800,
xp 18 12 [3,12] 194004644049216000,
xp 18 12 [2,13] 313385809857120000,
xp 18 12 [1,14] 629336230165843200,
xp 13 13 [2,3,3] 6486480000,
xp 13 13 [2,2,4] 7264857600,
xp 13 13 [1,3,4] 18162144000,
xp 13 13 [1,2,5] 21794572800,
xp 13 13 [1,1,6] 17124307200,
xp 13 13 [5,5] 1248234624000,
xp 13 13 [4,6] 2702527027200,
xp 13 13 [3,7] 3440428992000,
xp 13 13 [2,8] 5261832576000,
xp 13 13 [1,9] 10550648908800,
xm 13 13 [12] 8419417829222400,
xm 14 13 [3,3,3] 32432400000,
xm 14 13 [2,3,4] 217945728000,
xm 14 13 [1,4,4] 152562009600,
xm 14 13 [2,2,5] 130767436800,
xm 14 13 [1,3,5] 326918592000,
xm 14 13 [1,2,6] 410983372800,
xm 14 13 [1,1,7] 333923990400,
xm 14 13 [5,6] 51783904972800,
xm 14 13 [4,7] 59215854297600,
xm 14 13 [3,8] 77915597760000,
xm 14 13 [2,9] 121103100518400,
xm 14 13 [1,10] 248398973222400,
xp 14 13 [13] 210485445730560000,
xp 15 13 [3,3,4] 841945104000,
xp 15 13 [2,4,4] 942615273600,
xp 15 13 [2,3,5] 2019630412800,
xp 15 13 [1,4,5] 2818764748800,
xp 15 13 [2,2,6] 1268755488000,
xp 15 13 [1,3,6] 3163326566400,
xp 15 13 [1,2,7] 4109833728000,
xp 15 13 [1,1,8] 3413445235200,
xp 15 13 [6,6] 272650105728000,
xp 15 13 [5,7] 577294644326400,
xp 15 13 [4,8] 686102492275200,
xp 15 13 [3,9] 923411141452800,
xp 15 13 [2,10] 1454384015884800,
xp 15 13 [1,11] 3011292815731200,
xm 15 13 [14] 2736310794497280000,
xm 16 13 [3,4,4] 5010935529600,
xm 16 13 [3,3,5] 5366913552000,
xm 16 13 [2,4,5] 12008809612800,
xm 16 13 [1,5,5] 8924877561600,
xm 16 13 [2,3,6] 13472159500800,
xm 16 13 [1,4,6] 18696629952000,
xm 16 13 [2,2,7] 8741958825600,
xm 16 13 [1,3,7] 21687935068800,
xm 16 13 [1,2,8] 28865873836800,
xm 16 13 [1,1,9] 24302245968000,
xm 16 13 [6,7] 4128327979776000,
xm 16 13 [5,8] 4556504157004800,
xm 16 13 [4,9] 5566883946624000,
xm 16 13 [3,10] 7615504254758400,
xm 16 13 [2,11] 12119255167219200,
xm 16 13 [1,12] 25105727802355200,
xp 16 13 [15] 24626797150475520000,
xp 17 13 [4,4,4] 7698932841600,
xp 17 13 [3,4,5] 49459150540800,
xp 17 13 [2,5,5] 29593397433600,
xp 17 13 [3,3,6] 27729961459200,
xp 17 13 [2,4,6] 61985840716800,
xp 17 13 [1,5,6] 91397097792000,
xp 17 13 [2,3,7] 71863711920000,
xp 17 13 [1,4,7] 98965263196800,
xp 17 13 [2,2,8] 47748276576000,
xp 17 13 [1,3,8] 117663968822400,
xp 17 13 [1,2,9] 159467256748800,
xp 17 13 [1,1,10] 135239216112000,
xp 17 13 [7,7] 11956720583808000,
xp 17 13 [6,8] 24961760119296000,
xp 17 13 [5,9] 28414705423104000,
xp 17 13 [4,10] 35423506889971200,
xp 17 13 [3,11] 49055700825331200]
def extC2_3 : PL := [
xp 17 13 [2,12] 78664032730483200,
xp 17 13 [1,13] 162073793212531200,
xm 18 13 [4,4,5] 94172532854400,
xm 18 13 [3,5,5] 100789001913600,
xm 18 13 [3,4,6] 211072653792000,
xm 18 13 [2,5,6] 252160093785600,
xm 18 13 [1,6,6] 192783893702400,
xm 18 13 [3,3,7] 122270666918400,
xm 18 13 [2,4,7] 272965348656000,
xm 18 13 [1,5,7] 398604055449600,
xm 18 13 [2,3,8] 324302983804800,
xm 18 13 [1,4,8] 442477827792000,
xm 18 13 [2,2,9] 219313856361600,
xm 18 13 [1,3,9] 536133517920000,
xm 18 13 [1,2,10] 736636322822400,
xm 18 13 [1,1,11] 626330097993600,
xm 18 13 [7,8] 118182378682368000,
xm 18 13 [6,9] 127463684687539200,
xm 18 13 [5,10] 148502042892403200,
xm 18 13 [4,11] 187950865194892800,
xm 18 13 [3,12] 262740745518451200,
xm 18 13 [2,13] 423502817837299200,
xm 18 13 [1,14] 864393563800166400,
xp 14 14 [3,3,3] 5405400000,
xp 14 14 [2,3,4] 36324288000,
xp 14 14 [1,4,4] 25427001600,
xp 14 14 [2,2,5] 21794572800,
xp 14 14 [1,3,5] 54486432000,
xp 14 14 [1,2,6] 68497228800,
xp 14 14 [1,1,7] 55653998400,
xp 14 14 [5,6] 8630650828800,
xp 14 14 [4,7] 9869309049600,
xp 14 14 [3,8] 12985932960000,
xp 14 14 [2,9] 20183850086400,
xp 14 14 [1,10] 40673516083200,
xm 14 14 [13] 35080907621760000,
xm 15 14 [3,3,4] 295134840000,
xm 15 14 [2,4,4] 330551020800,
xm 15 14 [2,3,5] 708323616000,
xm 15 14 [1,4,5] 991653062400,
xm 15 14 [2,2,6] 445231987200,
xm 15 14 [1,3,6] 1113079968000,
xm 15 14 [1,2,7] 1447003958400,
xm 15 14 [1,1,8] 1205836632000,
xm 15 14 [6,6] 94937159116800,
xm 15 14 [5,7] 201022242220800,
xm 15 14 [4,8] 238941166464000,
xm 15 14 [3,9] 321680110752000,
xm 15 14 [2,10] 505513699891200,
xm 15 14 [1,11] 1037174660121600,
xp 15 14 [14] 947184505787520000,
xp 16 14 [3,4,4] 2763370209600,
xp 16 14 [3,3,5] 2960429472000,
xp 16 14 [2,4,5] 6629182560000,
xp 16 14 [1,5,5] 4958265312000,
xp 16 14 [2,3,6] 7439733100800,
xp 16 14 [1,4,6] 10388227449600,
xp 16 14 [2,2,7] 4833335707200,
xp 16 14 [1,3,7] 12055512268800,
xp 16 14 [1,2,8] 16065454204800,
xp 16 14 [1,1,9] 13616678275200,
xp 16 14 [6,7] 2247924930451200,
xp 16 14 [5,8] 2481352069996800,
xp 16 14 [4,9] 3032400859488000,
xp 16 14 [3,10] 4148354597587200,
xp 16 14 [2,11] 6580393852032000,
xp 16 14 [1,12] 13605291129830400,
xm 16 14 [15] 13260583081025280000,
xm 17 14 [4,4,4] 5922372456000,
xm 17 14 [3,4,5] 38060588966400,
xm 17 14 [2,5,5] 22808020435200,
xm 17 14 [3,3,6] 21350897568000,
xm 17 14 [2,4,6] 47781487353600,
xm 17 14 [1,5,6] 71115691046400,
xm 17 14 [2,3,7] 55431382406400,
xm 17 14 [1,4,7] 77025133785600,
xm 17 14 [2,2,8] 36898600939200,
xm 17 14 [1,3,8] 91643584032000,
xm 17 14 [1,2,9] 124442340422400,
xm 17 14 [1,1,10] 106595958268800,
xm 17 14 [7,7] 9033534404294400,
xm 17 14 [6,8] 18860249593785600,
xm 17 14 [5,9] 21473538742656000,
xm 17 14 [4,10] 26778196789344000,
xm 17 14 [3,11] 37065920469177600,
xm 17 14 [2,12] 59240976175180800,
xm 17 14 [1,13] 122549303958681600,
xp 18 14 [4,4,5] 94559386521600,
xp 18 14 [3,5,5] 101253952800000,
xp 18 14 [3,4,6] 212094404121600,
xp 18 14 [2,5,6] 253909886630400,
xp 18 14 [1,6,6] 196532560224000,
xp 18 14 [3,3,7] 122967314870400,
xp 18 14 [2,4,7] 274955660179200,
xp 18 14 [1,5,7] 406405734134400,
xp 18 14 [2,3,8] 326971521676800,
xp 18 14 [1,4,8] 451333948665600,
xp 18 14 [2,2,9] 221688426960000,
xp 18 14 [1,3,9] 547412728262400,
xp 18 14 [1,2,10] 754148780985600,
xp 18 14 [1,1,11] 649667674656000,
xp 18 14 [7,8] 115963342458163200,
xp 18 14 [6,9] 125086739518540800,
xp 18 14 [5,10] 145772055741312000,
xp 18 14 [4,11] 184532110905542400,
xp 18 14 [3,12] 257722650471686400,
xp 18 14 [2,13] 414259761307392000,
xp 18 14 [1,14] 853167673361203200,
xp 15 15 [3,3,4] 45405360000,
xp 15 15 [2,4,4] 50854003200,
xp 15 15 [2,3,5] 108972864000,
xp 15 15 [1,4,5] 152562009600,
xp 15 15 [2,2,6] 68497228800,
xp 15 15 [1,3,6] 171243072000,
xp 15 15 [1,2,7] 222615993600,
xp 15 15 [1,1,8] 185513328000,
xp 15 15 [6,6] 14605716787200,
xp 15 15 [5,7] 30926498803200,
xp 15 15 [4,8] 36760179456000,
xp 15 15 [3,9] 49489247808000,
xp 15 15 [2,10] 77771338444800,
xp 15 15 [1,11] 157218783321600,
xm 15 15 [14] 145720693198080000,
xm 16 15 [3,4,4] 889945056000,
xm 16 15 [3,3,5] 953512560000,
xm 16 15 [2,4,5] 2135868134400,
xm 16 15 [1,5,5] 1601901100800,
xm 16 15 [2,3,6] 2397403008000,
xm 16 15 [1,4,6] 3356364211200,
xm 16 15 [2,2,7] 1558311955200,
xm 16 15 [1,3,7] 3895779888000,
xm 16 15 [1,2,8] 5194373184000,
xm 16 15 [1,1,9] 4415217206400,
xm 16 15 [6,7] 719940123302400,
xm 16 15 [5,8] 794739097152000,
xm 16 15 [4,9] 971347785408000,
xm 16 15 [3,10] 1329152400576000,
xm 16 15 [2,11] 2104854457305600,
xm 16 15 [1,12] 4317650168832000,
xp 16 15 [15] 4225900102744320000,
xp 17 15 [4,4,4] 2987672688000,
xp 17 15 [3,4,5] 19204651065600,
xp 17 15 [2,5,5] 11518431724800,
xp 17 15 [3,3,6] 10776637872000,
xp 17 15 [2,4,6] 24132819110400,
xp 17 15 [1,5,6] 36113607129600,
xp 17 15 [2,3,7] 28006804425600,
xp 17 15 [1,4,7] 39120479798400,
xp 17 15 [2,2,8] 18662640796800,
xp 17 15 [1,3,8] 46563845328000,
xp 17 15 [1,2,9] 63297147513600,
xp 17 15 [1,1,10] 54530799523200,
xp 17 15 [7,7] 4509515058048000,
xp 17 15 [6,8] 9415320833318400,
xp 17 15 [5,9] 10721186251776000,
xp 17 15 [4,10] 13372947491904000,
xp 17 15 [3,11] 18512260320153600,
xp 17 15 [2,12] 29514893382374400,
xp 17 15 [1,13] 60932838007641600,
xm 18 15 [4,4,5] 66300906672000,
xm 18 15 [3,5,5] 71017615468800,
xm 18 15 [3,4,6] 148780651219200,
xm 18 15 [2,5,6] 178344989222400,
xm 18 15 [1,6,6] 139169244614400,
xm 18 15 [3,3,7] 86306508288000,
xm 18 15 [2,4,7] 193170747369600,
xm 18 15 [1,5,7] 287808231110400,
xm 18 15 [2,3,8] 229851013392000,
xm 18 15 [1,4,8] 319713669475200,
xm 18 15 [2,2,9] 156090914179200,
xm 18 15 [1,3,9] 388019676844800,
xm 18 15 [1,2,10] 535445432121600,
xm 18 15 [1,1,11] 465203340201600,
xm 18 15 [7,8] 80084768001638400,
xm 18 15 [6,9] 86392814796288000,
xm 18 15 [5,10] 100699062976512000,
xm 18 15 [4,11] 127511472920832000,
xm 18 15 [3,12] 178044405739200000,
xm 18 15 [2,13] 285450646786905600,
xm 18 15 [1,14] 589629101181120000,
xp 16 16 [3,4,4] 127135008000,
xp 16 16 [3,3,5] 136216080000,
xp 16 16 [2,4,5] 305124019200,
xp 16 16 [1,5,5] 228843014400,
xp 16 16 [2,3,6] 342486144000,
xp 16 16 [1,4,6] 479480601600,
xp 16 16 [2,2,7] 222615993600,
xp 16 16 [1,3,7] 556539984000,
xp 16 16 [1,2,8] 742053312000,
xp 16 16 [1,1,9] 630745315200,
xp 16 16 [6,7] 102848589043200,
xp 16 16 [5,8] 113534156736000,
xp 16 16 [4,9] 138763969344000,
xp 16 16 [3,10] 189878914368000,
xp 16 16 [2,11] 300693493900800,
xp 16 16 [1,12] 609097077388800,
xm 16 16 [15] 603700014677760000,
xm 17 16 [4,4,4] 889945056000,
xm 17 16 [3,4,5] 5721075360000,
xm 17 16 [2,5,5] 3432645216000,
xm 17 16 [3,3,6] 3210807600000,
xm 17 16 [2,4,6] 7192209024000,
xm 17 16 [1,5,6] 10788313536000,
xm 17 16 [2,3,7] 8348099760000,
xm 17 16 [1,4,7] 11687339664000,
xm 17 16 [2,2,8] 5565399840000,
xm 17 16 [1,3,8] 13913499600000,
xm 17 16 [1,2,9] 18922359456000,
xm 17 16 [1,1,10] 16342037712000,
xm 17 16 [7,7] 1337031657561600,
xm 17 16 [6,8] 2791604559744000,
xm 17 16 [5,9] 3178956388608000,
xm 17 16 [4,10] 3965667818112000,
xm 17 16 [3,11] 5490924671232000,
xm 17 16 [2,12] 8743241591884800,
xm 17 16 [1,13] 17925958290240000,
xp 18 16 [4,4,5] 30830239440000,
xp 18 16 [3,5,5] 33029675078400,
xp 18 16 [3,4,6] 69202438905600,
xp 18 16 [2,5,6] 83015527795200,
xp 18 16 [1,6,6] 65089491667200,
xp 18 16 [3,3,7] 40156500384000,
xp 18 16 [2,4,7] 89928299260800,
xp 18 16 [1,5,7] 134614178899200,
xp 18 16 [2,3,8] 107041190256000,
xp 18 16 [1,4,8] 149560845033600,
xp 18 16 [2,2,9] 72758327241600,
xp 18 16 [1,3,9] 181580445446400,
xp 18 16 [1,2,10] 250807273516800,
xp 18 16 [1,1,11] 218983305340800,
xp 18 16 [7,8] 36907950810931200,
xp 18 16 [6,9] 39817096615296000,
xp 18 16 [5,10] 46415974340736000,
xp 18 16 [4,11] 58787756995968000,
xp 18 16 [3,12] 82096363481932800,
xp 18 16 [2,13] 131372216476300800,
xp 18 16 [1,14] 270816896750400000,
xp 17 17 [4,4,4] 118659340800,
xp 17 17 [3,4,5] 762810048000,
xp 17 17 [2,5,5] 457686028800,
xp 17 17 [3,3,6] 428107680000,
xp 17 17 [2,4,6] 958961203200,
xp 17 17 [1,5,6] 1438441804800,
xp 17 17 [2,3,7] 1113079968000,
xp 17 17 [1,4,7] 1558311955200,
xp 17 17 [2,2,8] 742053312000,
xp 17 17 [1,3,8] 1855133280000,
xp 17 17 [1,2,9] 2522981260800,
xp 17 17 [1,1,10] 2178938361600,
xp 17 17 [7,7] 178270887674880,
xp 17 17 [6,8] 372213941299200,
xp 17 17 [5,9] 423860851814400,
xp 17 17 [4,10] 528755709081600,
xp 17 17 [3,11] 732123289497600,
xp 17 17 [2,12] 1165765545584640,
xp 17 17 [1,13] 2364427473408000,
xm 18 17 [4,4,5] 8543472537600,
xm 18 17 [3,5,5] 9153720576000,
xm 18 17 [3,4,6] 19179224064000,
xm 18 17 [2,5,6] 23015068876800,
xm 18 17 [1,6,6] 18083268403200,
xm 18 17 [3,3,7] 11130799680000,
xm 18 17 [2,4,7] 24932991283200,
xm 18 17 [1,5,7] 37399486924800,
xm 18 17 [2,3,8] 29682132480000,
xm 18 17 [1,4,8] 41554985472000,
xm 18 17 [2,2,9] 20183850086400,
xm 18 17 [1,3,9] 50459625216000,
xm 18 17 [1,2,10] 69726027571200,
xm 18 17 [1,1,11] 61010274124800,
xm 18 17 [7,8] 10186907867136000,
xm 18 17 [6,9] 10990106372044800,
xm 18 17 [5,10] 12812157566208000,
xm 18 17 [4,11] 16228732917196800,
xm 18 17 [3,12] 22667663386368000,
xm 18 17 [2,13] 36237421059840000,
xm 18 17 [1,14] 74248162724736000,
xp 18 18 [4,4,5] 1067934067200,
xp 18 18 [3,5,5] 1144215072000,
xp 18 18 [3,4,6] 2397403008000,
xp 18 18 [2,5,6] 2876883609600,
xp 18 18 [1,6,6] 2260408550400,
xp 18 18 [3,3,7] 1391349960000,
xp 18 18 [2,4,7] 3116623910400,
xp 18 18 [1,5,7] 4674935865600,
xp 18 18 [2,3,8] 3710266560000,
xp 18 18 [1,4,8] 5194373184000,
xp 18 18 [2,2,9] 2522981260800,
xp 18 18 [1,3,9] 6307453152000,
xp 18 18 [1,2,10] 8715753446400,
xp 18 18 [1,1,11] 7626284265600,
xp 18 18 [7,8] 1273363483392000,
xp 18 18 [6,9] 1373763296505600,
xp 18 18 [5,10] 1601519695776000,
xp 18 18 [4,11] 2028591614649600,
xp 18 18 [3,12] 2833457923296000,
xp 18 18 [2,13] 4529677632480000,
xp 18 18 [1,14] 9194281832736000]
/-- row 2 -/
def extC2 : PL := extC2_0 ++ extC2_1 ++ extC2_2 ++ extC2_3
def extC3_0 : PL := [
xm 5 5 [1,1] 605404800,
xp 5 5 [4] 36324288000,
xp 6 5 [1,2] 5189184000,
xm 6 5 [5] 326918592000,
xm 7 5 [2,2] 7005398400,
xm 7 5 [1,3] 15048633600,
xp 7 5 [6] 1634592960000,
xm 8 5 [1,1,1] 43243200,
xp 8 5 [2,3] 31135104000,
xp 8 5 [1,4] 35459424000,
xm 8 5 [7] 5993507520000,
xp 9 5 [1,1,2] 129729600,
xm 9 5 [3,3] 29578348800,
xm 9 5 [2,4] 61232371200,
xm 9 5 [1,5] 72648576000,
xp 9 5 [8] 17980522560000,
xm 10 5 [1,2,2] 129729600,
xm 10 5 [1,1,3] 129729600,
xp 10 5 [3,4] 103783680000,
xp 10 5 [2,5] 110529619200,
xp 10 5 [1,6] 134399865600,
xm 10 5 [9] 46749358656000,
xp 11 5 [2,2,2] 43243200,
xp 11 5 [1,2,3] 259459200,
xp 11 5 [1,1,4] 129729600,
xm 11 5 [4,4] 83891808000,
xm 11 5 [3,5] 171243072000,
xm 11 5 [2,6] 186810624000,
xm 11 5 [1,7] 230053824000,
xp 11 5 [10] 109081836864000,
xm 12 5 [2,2,3] 129729600,
xm 12 5 [1,3,3] 129729600,
xm 12 5 [1,2,4] 259459200,
xm 12 5 [1,1,5] 129729600,
xp 12 5 [4,5] 259459200000,
xp 12 5 [3,6] 269318649600,
xp 12 5 [2,7] 299415916800,
xp 12 5 [1,8] 370507737600,
xm 12 5 [11] 233746793280000,
xp 13 5 [2,3,3] 129729600,
xp 13 5 [2,2,4] 129729600,
xp 13 5 [1,3,4] 259459200,
xp 13 5 [1,2,5] 259459200,
xp 13 5 [1,1,6] 129729600,
xm 13 5 [5,5] 190702512000,
xm 13 5 [4,6] 386594208000,
xm 13 5 [3,7] 407350944000,
xm 13 5 [2,8] 459242784000,
xm 13 5 [1,9] 568215648000,
xp 13 5 [12] 467493586560000,
xm 14 5 [3,3,3] 43243200,
xm 14 5 [2,3,4] 259459200,
xm 14 5 [1,4,4] 129729600,
xm 14 5 [2,2,5] 129729600,
xm 14 5 [1,3,5] 259459200,
xm 14 5 [1,2,6] 259459200,
xm 14 5 [1,1,7] 129729600,
xp 14 5 [5,6] 544864320000,
xp 14 5 [4,7] 558529171200,
xp 14 5 [3,8] 596237241600,
xp 14 5 [2,9] 678745267200,
xp 14 5 [1,10] 837188352000,
xm 14 5 [13] 883043441280000,
xp 15 5 [3,3,4] 129729600,
xp 15 5 [2,4,4] 129729600,
xp 15 5 [2,3,5] 259459200,
xp 15 5 [1,4,5] 259459200,
xp 15 5 [2,2,6] 129729600,
xp 15 5 [1,3,6] 259459200,
xp 15 5 [1,2,7] 259459200,
xp 15 5 [1,1,8] 129729600,
xm 15 5 [6,6] 375956380800,
xm 15 5 [5,7] 759177619200,
xm 15 5 [4,8] 786161376000,
xm 15 5 [3,9] 848431584000,
xm 15 5 [2,10] 971934163200,
xm 15 5 [1,11] 1192993401600,
xp 15 5 [14] 1589478194304000,
xm 16 5 [3,4,4] 129729600,
xm 16 5 [3,3,5] 129729600,
xm 16 5 [2,4,5] 259459200,
xm 16 5 [1,5,5] 129729600,
xm 16 5 [2,3,6] 259459200,
xm 16 5 [1,4,6] 259459200,
xm 16 5 [2,2,7] 129729600,
xm 16 5 [1,3,7] 259459200,
xm 16 5 [1,2,8] 259459200,
xm 16 5 [1,1,9] 129729600,
xp 16 5 [6,7] 1017080064000,
xp 16 5 [5,8] 1035242208000,
xp 16 5 [4,9] 1081944864000,
xp 16 5 [3,10] 1177944768000,
xp 16 5 [2,11] 1354377024000,
xp 16 5 [1,12] 1652755104000,
xm 16 5 [15] 2745462335616000,
xp 17 5 [4,4,4] 43243200,
xp 17 5 [3,4,5] 259459200,
xp 17 5 [2,5,5] 129729600,
xp 17 5 [3,3,6] 129729600,
xp 17 5 [2,4,6] 259459200,
xp 17 5 [1,5,6] 259459200,
xp 17 5 [2,3,7] 259459200,
xp 17 5 [1,4,7] 259459200,
xp 17 5 [2,2,8] 129729600,
xp 17 5 [1,3,8] 259459200,
xp 17 5 [1,2,9] 259459200,
xp 17 5 [1,1,10] 129729600,
xm 17 5 [7,7] 670788518400,
xm 17 5 [6,8] 1351263513600,
xm 17 5 [5,9] 1385512128000,
xm 17 5 [4,10] 1459890432000,
xm 17 5 [3,11] 1600344345600,
xm 17 5 [2,12] 1843198156800,
xm 17 5 [1,13] 2235154521600,
xm 18 5 [4,4,5] 129729600,
xm 18 5 [3,5,5] 129729600,
xm 18 5 [3,4,6] 259459200,
xm 18 5 [2,5,6] 259459200,
xm 18 5 [1,6,6] 129729600,
xm 18 5 [3,3,7] 129729600,
xm 18 5 [2,4,7] 259459200,
xm 18 5 [1,5,7] 259459200,
xm 18 5 [2,3,8] 259459200,
xm 18 5 [1,4,8] 259459200,
xm 18 5 [2,2,9] 129729600,
xm 18 5 [1,3,9] 259459200,
xm 18 5 [1,2,10] 259459200,
xm 18 5 [1,1,11] 129729600,
xp 18 5 [7,8] 1743565824000,
xp 18 5 [6,9] 1766917152000,
xp 18 5 [5,10] 1823998176000,
xp 18 5 [4,11] 1935565632000,
xp 18 5 [3,12] 2132754624000,
xp 18 5 [2,13] 2457078624000,
xp 18 5 [1,14] 2960429472000,
xm 6 6 [1,2] 5189184000,
xp 6 6 [5] 326918592000,
xp 7 6 [2,2] 15567552000,
xp 7 6 [1,3] 33729696000,
xm 7 6 [6] 3596104512000,
xp 8 6 [1,1,1] 129729600,
xm 8 6 [2,3] 116756640000,
xm 8 6 [1,4] 132324192000,
xp 8 6 [7] 21576627072000,
xm 9 6 [1,1,2] 648648000,
xp 9 6 [3,3] 163459296000,
xp 9 6 [2,4] 339891552000,
xp 9 6 [1,5] 399567168000,
xm 9 6 [8] 93498717312000,
xp 10 6 [1,2,2] 908107200,
xp 10 6 [1,1,3] 1037836800,
xm 10 6 [3,4] 788755968000,
xm 10 6 [2,5] 840647808000,
xm 10 6 [1,6] 1017080064000,
xp 10 6 [9] 327245510592000,
xm 11 6 [2,2,2] 389188800,
xm 11 6 [1,2,3] 2594592000,
xm 11 6 [1,1,4] 1556755200,
xp 11 6 [4,4] 832864032000,
xp 11 6 [3,5] 1704646944000,
xp 11 6 [2,6] 1852538688000,
xp 11 6 [1,7] 2288430144000,
xm 11 6 [10] 981736531776000,
xp 12 6 [2,2,3] 1556755200,
xp 12 6 [1,3,3] 1686484800,
xp 12 6 [1,2,4] 3632428800,
xp 12 6 [1,1,5] 2205403200,
xm 12 6 [4,5] 3256212960000,
xm 12 6 [3,6] 3385942560000,
xm 12 6 [2,7] 3741401664000,
xm 12 6 [1,8] 4685833152000,
xp 12 6 [11] 2617964084736000,
xm 13 6 [2,3,3] 1945944000,
xm 13 6 [2,2,4] 2075673600,
xm 13 6 [1,3,4] 4410806400,
xm 13 6 [1,2,5] 4929724800,
xm 13 6 [1,1,6] 2983780800,
xp 13 6 [5,5] 2942267328000,
xp 13 6 [4,6] 5975345376000,
xp 13 6 [3,7] 6291885600000,
xp 13 6 [2,8] 7052101056000,
xp 13 6 [1,9] 8904639744000,
xm 13 6 [12] 6357912777216000,
xp 14 6 [3,3,3] 778377600,
xp 14 6 [2,3,4] 4929724800,
xp 14 6 [1,4,4] 2724321600,
xp 14 6 [2,2,5] 2724321600,
xp 14 6 [1,3,5] 5708102400,
xp 14 6 [1,2,6] 6486480000,
xp 14 6 [1,1,7] 3891888000,
xm 14 6 [5,6] 10134476352000,
xm 14 6 [4,7] 10406908512000,
xm 14 6 [3,8] 11076313248000,
xm 14 6 [2,9] 12563014464000,
xm 14 6 [1,10] 15925605696000,
xp 14 6 [13] 14305303748736000,
xm 15 6 [3,3,4] 2854051200,
xm 15 6 [2,4,4] 2983780800,
xm 15 6 [2,3,5] 6227020800,
xm 15 6 [1,4,5] 6745939200,
xm 15 6 [2,2,6] 3502699200,
xm 15 6 [1,3,6] 7264857600,
xm 15 6 [1,2,7] 8302694400,
xm 15 6 [1,1,8] 4929724800,
xp 15 6 [6,6] 8281937664000,
xp 15 6 [5,7] 16745496768000,
xp 15 6 [4,8] 17350036704000,
xp 15 6 [3,9] 18642143520000,
xp 15 6 [2,10] 21348302976000,
xp 15 6 [1,11] 27084945888000,
xm 15 6 [14] 30200085691776000,
xp 16 6 [3,4,4] 3372969600,
xp 16 6 [3,3,5] 3502699200,
xp 16 6 [2,4,5] 7264857600,
xp 16 6 [1,5,5] 4021617600,
xp 16 6 [2,3,6] 7783776000,
xp 16 6 [1,4,6] 8302694400,
xp 16 6 [2,2,7] 4410806400,
xp 16 6 [1,3,7] 9081072000,
xp 16 6 [1,2,8] 10378368000,
xp 16 6 [1,1,9] 6097291200,
xm 16 6 [6,7] 26189811648000,
xm 16 6 [5,8] 26698351680000,
xm 16 6 [4,9] 27873701856000,
xm 16 6 [3,10] 30203645472000,
xm 16 6 [2,11] 34847965152000,
xm 16 6 [1,12] 44152172064000,
xp 16 6 [15] 60400171383552000,
xm 17 6 [4,4,4] 1297296000,
xm 17 6 [3,4,5] 8043235200,
xm 17 6 [2,5,5] 4281076800,
xm 17 6 [3,3,6] 4281076800,
xm 17 6 [2,4,6] 8821612800,
xm 17 6 [1,5,6] 9599990400,
xm 17 6 [2,3,7] 9599990400,
xm 17 6 [1,4,7] 10118908800,
xm 17 6 [2,2,8] 5448643200,
xm 17 6 [1,3,8] 11156745600,
xm 17 6 [1,2,9] 12713500800,
xm 17 6 [1,1,10] 7394587200,
xp 17 6 [7,7] 19942034112000,
xp 17 6 [6,8] 40210986816000,
xp 17 6 [5,9] 41269580352000,
xp 17 6 [4,10] 43378983648000,
xp 17 6 [3,11] 47356493184000,
xp 17 6 [2,12] 54945674784000,
xp 17 6 [1,13] 69415714368000,
xp 18 6 [4,4,5] 4540536000,
xp 18 6 [3,5,5] 4670265600,
xp 18 6 [3,4,6] 9599990400,
xp 18 6 [2,5,6] 10118908800,
xp 18 6 [1,6,6] 5578372800,
xp 18 6 [3,3,7] 5189184000,
xp 18 6 [2,4,7] 10637827200,
xp 18 6 [1,5,7] 11416204800,
xp 18 6 [2,3,8] 11675664000,
xp 18 6 [1,4,8] 12194582400,
xp 18 6 [2,2,9] 6616209600,
xp 18 6 [1,3,9] 13491878400,
xp 18 6 [1,2,10] 15308092800,
xp 18 6 [1,1,11] 8821612800,
xm 18 6 [7,8] 59281238016000,
xm 18 6 [6,9] 60153020928000,
xm 18 6 [5,10] 62093775744000,
xm 18 6 [4,11] 65669123520000,
xm 18 6 [3,12] 72155603520000,
xm 18 6 [2,13] 84054402432000,
xm 18 6 [1,14] 105776326656000,
xm 7 7 [2,2] 8873504640,
xm 7 7 [1,3] 19718899200,
xp 7 7 [6] 2157662707200,
xm 8 7 [1,1,1] 86486400,
xp 8 7 [2,3] 147891744000,
xp 8 7 [1,4] 174356582400,
xm 8 7 [7] 28049615193600,
xp 9 7 [1,1,2] 994593600,
xm 9 7 [3,3] 340151011200,
xm 9 7 [2,4] 716626310400,
xm 9 7 [1,5] 879047769600,
xp 9 7 [8] 196347306355200,
xm 10 7 [1,2,2] 2075673600,
xm 10 7 [1,1,3] 3070267200,
xp 10 7 [3,4] 2392732742400,
xp 10 7 [2,5] 2604451449600,
xp 10 7 [1,6] 3290980492800,
xm 10 7 [9] 981736531776000,
xp 11 7 [1,1,1,1] 5405400,
xp 11 7 [2,2,2] 1167566400,
xp 11 7 [1,2,3] 9340531200,
xp 11 7 [1,1,4] 7654046400,
xm 11 7 [4,4] 3413185776000,
xm 11 7 [3,5] 7041203769600,
xm 11 7 [2,6] 7846046208000,
xm 11 7 [1,7] 10134476352000,
xp 11 7 [10] 3926946127104000,
xm 12 7 [1,1,1,2] 21621600,
xm 12 7 [2,2,3] 6616209600,
xm 12 7 [1,3,3] 8043235200,
xm 12 7 [1,2,4] 19891872000,
xm 12 7 [1,1,5] 16302686400,
xp 12 7 [4,5] 17272198944000,
xp 12 7 [3,6] 18198468288000,
xp 12 7 [2,7] 20652537185280,
xp 12 7 [1,8] 27090653990400,
xm 12 7 [11] 13351616832153600,
xp 13 7 [1,1,2,2] 32432400,
xp 13 7 [1,1,1,3] 21621600,
xp 13 7 [2,3,3] 10508097600,
xp 13 7 [2,2,4] 12583771200,
xp 13 7 [1,3,4] 28713484800,
xp 13 7 [1,2,5] 38918880000,
xp 13 7 [1,1,6] 30962131200,
xm 13 7 [5,5] 19478899440000,
xm 13 7 [4,6] 39767830502400,
xm 13 7 [3,7] 42572065536000,
xm 13 7 [2,8] 49037788800000,
xm 13 7 [1,9] 64969621516800,
xp 13 7 [12] 40054850496460800,
xm 14 7 [1,2,2,2] 21621600,
xm 14 7 [1,1,2,3] 64864800,
xm 14 7 [1,1,1,4] 21621600,
xm 14 7 [3,3,3] 5059454400,
xm 14 7 [2,3,4] 35026992000,
xm 14 7 [1,4,4] 22054032000,
xm 14 7 [2,2,5] 22962139200,
xm 14 7 [1,3,5] 50335084800,
xm 14 7 [1,2,6] 70313443200,
xm 14 7 [1,1,7] 53967513600,
xp 14 7 [5,6] 81882210009600,
xp 14 7 [4,7] 84846271910400,
xp 14 7 [3,8] 91985551257600,
xp 14 7 [2,9] 107266660300800,
xp 14 7 [1,10] 142919467891200,
xm 14 7 [13] 108720308490393600,
xp 15 7 [2,2,2,2] 5405400,
xp 15 7 [1,2,2,3] 64864800,
xp 15 7 [1,1,3,3] 32432400,
xp 15 7 [1,1,2,4] 64864800,
xp 15 7 [1,1,1,5] 21621600,
xp 15 7 [3,3,4] 23221598400,
xp 15 7 [2,4,4] 25902676800,
xp 15 7 [2,3,5] 58378320000,
xp 15 7 [1,4,5] 69189120000,
xp 15 7 [2,2,6] 39697257600,
xp 15 7 [1,3,6] 84843158400,
xp 15 7 [1,2,7] 118745827200,
xp 15 7 [1,1,8] 88043155200,
xm 15 7 [6,6] 79898903884800,
xm 15 7 [5,7] 162158886489600,
xm 15 7 [4,8] 169990402982400,
xm 15 7 [3,9] 186240851596800,
xm 15 7 [2,10] 219379499539200,
xm 15 7 [1,11] 292962647577600,
xp 15 7 [14] 271800771225984000,
xm 16 7 [2,2,2,3] 21621600,
xm 16 7 [1,2,3,3] 64864800,
xm 16 7 [1,2,2,4] 64864800,
xm 16 7 [1,1,3,4] 64864800,
xm 16 7 [1,1,2,5] 64864800,
xm 16 7 [1,1,1,6] 21621600,
xm 16 7 [3,4,4] 32648616000,
xm 16 7 [3,3,5] 36194558400,
xm 16 7 [2,4,5] 78616137600,
xm 16 7 [1,5,5] 49297248000,
xm 16 7 [2,3,6] 94962067200,
xm 16 7 [1,4,6] 107848540800,
xm 16 7 [2,2,7] 65124259200,
xm 16 7 [1,3,7] 136907971200,
xm 16 7 [1,2,8] 189664675200,
xm 16 7 [1,1,9] 136302566400,
xp 16 7 [6,7] 297495918720000,
xp 16 7 [5,8] 305276581209600,
xp 16 7 [4,9] 323047460736000,
xp 16 7 [3,10] 357116010451200,
xp 16 7 [2,11] 424083467808000,
xp 16 7 [1,12] 566186677056000,
xm 16 7 [15] 634201799527296000,
xp 17 7 [2,2,3,3] 32432400,
xp 17 7 [1,3,3,3] 21621600,
xp 17 7 [2,2,2,4] 21621600,
xp 17 7 [1,2,3,4] 129729600,
xp 17 7 [1,1,4,4] 32432400,
xp 17 7 [1,2,2,5] 64864800,
xp 17 7 [1,1,3,5] 64864800,
xp 17 7 [1,1,2,6] 64864800,
xp 17 7 [1,1,1,7] 21621600,
xp 17 7 [4,4,4] 14486472000,
xp 17 7 [3,4,5] 94702608000,
xp 17 7 [2,5,5] 54875620800,
xp 17 7 [3,3,6] 56043187200,
xp 17 7 [2,4,6] 119351232000,
xp 17 7 [1,5,6] 142443100800,
xp 17 7 [2,3,7] 149448499200,
xp 17 7 [1,4,7] 164756592000,
xp 17 7 [2,2,8] 101967465600,
xp 17 7 [1,3,8] 211978166400,
xp 17 7 [1,2,9] 289297008000,
xp 17 7 [1,1,10] 202248446400,
xm 17 7 [7,7] 262816394480640,
xm 17 7 [6,8] 531438863155200]
def extC3_1 : PL := [
xm 17 7 [5,9] 550203990336000,
xm 17 7 [4,10] 586857791520000,
xm 17 7 [3,11] 653788924588800,
xm 17 7 [2,12] 781337614337280,
xm 17 7 [1,13] 1040952386073600,
xm 18 7 [2,3,3,3] 21621600,
xm 18 7 [2,2,3,4] 64864800,
xm 18 7 [1,3,3,4] 64864800,
xm 18 7 [1,2,4,4] 64864800,
xm 18 7 [2,2,2,5] 21621600,
xm 18 7 [1,2,3,5] 129729600,
xm 18 7 [1,1,4,5] 64864800,
xm 18 7 [1,2,2,6] 64864800,
xm 18 7 [1,1,3,6] 64864800,
xm 18 7 [1,1,2,7] 64864800,
xm 18 7 [1,1,1,8] 21621600,
xm 18 7 [4,4,5] 59891832000,
xm 18 7 [3,5,5] 64216152000,
xm 18 7 [3,4,6] 138551212800,
xm 18 7 [2,5,6] 155675520000,
xm 18 7 [1,6,6] 96259363200,
xm 18 7 [3,3,7] 85102617600,
xm 18 7 [2,4,7] 178680902400,
xm 18 7 [1,5,7] 205405200000,
xm 18 7 [2,3,8] 227286259200,
xm 18 7 [1,4,8] 245361916800,
xm 18 7 [2,2,9] 153340387200,
xm 18 7 [1,3,9] 316280764800,
xm 18 7 [1,2,10] 424648224000,
xm 18 7 [1,1,11] 289772683200,
xp 18 7 [7,8] 897718453632000,
xp 18 7 [6,9] 915502825036800,
xp 18 7 [5,10] 954807261408000,
xp 18 7 [4,11] 1025388466502400,
xp 18 7 [3,12] 1150013985120000,
xp 18 7 [2,13] 1380994943328000,
xp 18 7 [1,14] 1833519290803200,
xm 8 8 [2,3] 62270208000,
xm 8 8 [1,4] 77491814400,
xp 8 8 [7] 12466495641600,
xm 9 8 [1,1,2] 518918400,
xp 9 8 [3,3] 311351040000,
xp 9 8 [2,4] 668366899200,
xp 9 8 [1,5] 860885625600,
xm 9 8 [8] 186997434624000,
xp 10 8 [1,2,2] 2075673600,
xp 10 8 [1,1,3] 3891888000,
xm 10 8 [3,4] 3578461286400,
xm 10 8 [2,5] 3999304108800,
xm 10 8 [1,6] 5285183904000,
xp 10 8 [9] 1495979476992000,
xm 11 8 [1,1,1,1] 21621600,
xm 11 8 [2,2,2] 1556755200,
xm 11 8 [1,2,3] 16605388800,
xm 11 8 [1,1,4] 16864848000,
xp 11 8 [4,4] 7313289984000,
xp 11 8 [3,5] 15245303673600,
xp 11 8 [2,6] 17490144672000,
xp 11 8 [1,7] 23574462912000,
xm 11 8 [10] 8477217036288000,
xp 12 8 [1,1,1,2] 129729600,
xp 12 8 [2,2,3] 13751337600,
xp 12 8 [1,3,3] 20756736000,
xp 12 8 [1,2,4] 55005350400,
xp 12 8 [1,1,5] 54486432000,
xm 12 8 [4,5] 49709788128000,
xm 12 8 [3,6] 53233244064000,
xm 12 8 [2,7] 62223505344000,
xm 12 8 [1,8] 85107806784000,
xp 12 8 [11] 38147476663296000,
xm 13 8 [1,1,2,2] 259459200,
xm 13 8 [1,1,1,3] 194594400,
xm 13 8 [2,3,3] 29059430400,
xm 13 8 [2,2,4] 39178339200,
xm 13 8 [1,3,4] 103783680000,
xm 13 8 [1,2,5] 153599846400,
xm 13 8 [1,1,6] 145297152000,
xp 13 8 [5,5] 71649658080000,
xp 13 8 [4,6] 147269560838400,
xp 13 8 [3,7] 160734974400000,
xp 13 8 [2,8] 190593539136000,
xp 13 8 [1,9] 263354720428800,
xm 13 8 [12] 144960411320524800,
xp 14 8 [1,2,2,2] 216216000,
xp 14 8 [1,1,2,3] 713512800,
xp 14 8 [1,1,1,4] 281080800,
xp 14 8 [3,3,3] 16864848000,
xp 14 8 [2,3,4] 132843110400,
xp 14 8 [1,4,4] 103783680000,
xp 14 8 [2,2,5] 100151251200,
xp 14 8 [1,3,5] 243891648000,
xp 14 8 [1,2,6] 374659084800,
xp 14 8 [1,1,7] 337815878400,
xm 14 8 [5,6] 374038458393600,
xm 14 8 [4,7] 391893056755200,
xm 14 8 [3,8] 433820971584000,
xm 14 8 [2,9] 520356322886400,
xm 14 8 [1,10] 723576184531200,
xp 14 8 [13] 483201371068416000,
xm 15 8 [2,2,2,2] 64864800,
xm 15 8 [1,2,2,3] 843242400,
xm 15 8 [1,1,3,3] 454053600,
xm 15 8 [1,1,2,4] 972972000,
xm 15 8 [1,1,1,5] 389188800,
xm 15 8 [3,3,4] 99891792000,
xm 15 8 [2,4,4] 124540416000,
xm 15 8 [2,3,5] 296302406400,
xm 15 8 [1,4,5] 415134720000,
xm 15 8 [2,2,6] 230399769600,
xm 15 8 [1,3,6] 531891360000,
xm 15 8 [1,2,7] 821447827200,
xm 15 8 [1,1,8] 708323616000,
xp 15 8 [6,6] 441176639904000,
xp 15 8 [5,7] 899647273324800,
xp 15 8 [4,8] 956193292454400,
xp 15 8 [3,9] 1070252075692800,
xp 15 8 [2,10] 1295847698745600,
xp 15 8 [1,11] 1807641868032000,
xm 15 8 [14] 1449604113205248000,
xp 16 8 [2,2,2,3] 324324000,
xp 16 8 [1,2,3,3] 1037836800,
xp 16 8 [1,2,2,4] 1102701600,
xp 16 8 [1,1,3,4] 1167566400,
xp 16 8 [1,1,2,5] 1297296000,
xp 16 8 [1,1,1,6] 518918400,
xp 16 8 [3,4,4] 169945776000,
xp 16 8 [3,3,5] 202378176000,
xp 16 8 [2,4,5] 479999520000,
xp 16 8 [1,5,5] 363242880000,
xp 16 8 [2,3,6] 623739916800,
xp 16 8 [1,4,6] 806918112000,
xp 16 8 [2,2,7] 484669785600,
xp 16 8 [1,3,7] 1080388108800,
xp 16 8 [1,2,8] 1653792940800,
xp 16 8 [1,1,9] 1369944576000,
xm 16 8 [6,7] 1953175127904000,
xm 16 8 [5,8] 2020454974137600,
xm 16 8 [4,9] 2171338801632000,
xm 16 8 [3,10] 2452217915347200,
xm 16 8 [2,11] 2991958953984000,
xm 16 8 [1,12] 4176276039936000,
xp 16 8 [15] 3986411311314432000,
xm 17 8 [2,2,3,3] 583783200,
xm 17 8 [1,3,3,3] 410810400,
xm 17 8 [2,2,2,4] 410810400,
xm 17 8 [1,2,3,4] 2594592000,
xm 17 8 [1,1,4,4] 713512800,
xm 17 8 [1,2,2,5] 1427025600,
xm 17 8 [1,1,3,5] 1491890400,
xm 17 8 [1,1,2,6] 1686484800,
xm 17 8 [1,1,1,7] 670269600,
xm 17 8 [4,4,4] 86918832000,
xm 17 8 [3,4,5] 612323712000,
xm 17 8 [2,5,5] 407350944000,
xm 17 8 [3,3,6] 399567168000,
xm 17 8 [2,4,6] 911220710400,
xm 17 8 [1,5,6] 1271350080000,
xm 17 8 [2,3,7] 1233987955200,
xm 17 8 [1,4,7] 1507976870400,
xm 17 8 [2,2,8] 946507161600,
xm 17 8 [1,3,8] 2060106048000,
xm 17 8 [1,2,9] 3106245542400,
xm 17 8 [1,1,10] 2483024544000,
xp 17 8 [7,7] 2016470199744000,
xp 17 8 [6,8] 4091876556768000,
xp 17 8 [5,9] 4280345125056000,
xp 17 8 [4,10] 4640810926752000,
xp 17 8 [3,11] 5280451368192000,
xp 17 8 [2,12] 6482577733632000,
xp 17 8 [1,13] 9036477882432000,
xp 18 8 [2,3,3,3] 454053600,
xp 18 8 [2,2,3,4] 1427025600,
xp 18 8 [1,3,3,4] 1491890400,
xp 18 8 [1,2,4,4] 1556755200,
xp 18 8 [2,2,2,5] 518918400,
xp 18 8 [1,2,3,5] 3243240000,
xp 18 8 [1,1,4,5] 1751349600,
xp 18 8 [1,2,2,6] 1816214400,
xp 18 8 [1,1,3,6] 1881079200,
xp 18 8 [1,1,2,7] 2140538400,
xp 18 8 [1,1,1,8] 843242400,
xp 18 8 [4,4,5] 430702272000,
xp 18 8 [3,5,5] 494269776000,
xp 18 8 [3,4,6] 1110485376000,
xp 18 8 [2,5,6] 1399004006400,
xp 18 8 [1,6,6] 1017080064000,
xp 18 8 [3,3,7] 755545190400,
xp 18 8 [2,4,7] 1674030758400,
xp 18 8 [1,5,7] 2190354566400,
xp 18 8 [2,3,8] 2305035532800,
xp 18 8 [1,4,8] 2703564864000,
xp 18 8 [2,2,9] 1737338803200,
xp 18 8 [1,3,9] 3718050336000,
xp 18 8 [1,2,10] 5508837734400,
xp 18 8 [1,1,11] 4266806544000,
xm 18 8 [7,8] 7962865118208000,
xm 18 8 [6,9] 8170480218700800,
xm 18 8 [5,10] 8623022728320000,
xm 18 8 [4,11] 9417318669158400,
xm 18 8 [3,12] 10783518729984000,
xm 18 8 [2,13] 13302789724224000,
xm 18 8 [1,14] 18490929660403200,
xp 9 9 [1,1,2] 43243200,
xm 9 9 [3,3] 105636960000,
xm 9 9 [2,4] 230918688000,
xm 9 9 [1,5] 309794284800,
xp 9 9 [8] 66784798080000,
xm 10 9 [1,2,2] 882161280,
xm 10 9 [1,1,3] 2032430400,
xp 10 9 [3,4] 2633510880000,
xp 10 9 [2,5] 3007651046400,
xp 10 9 [1,6] 4126958035200,
xm 10 9 [9] 1135341567360000,
xp 11 9 [1,1,1,1] 32432400,
xp 11 9 [2,2,2] 1011890880,
xp 11 9 [1,2,3] 15308092800,
xp 11 9 [1,1,4] 17902684800,
xm 11 9 [4,4] 8639991360000,
xm 11 9 [3,5] 18165776428800,
xm 11 9 [2,6] 21333773260800,
xm 11 9 [1,7] 29796294528000,
xp 11 9 [10] 10218074106240000,
xm 12 9 [1,1,1,2] 302702400,
xm 12 9 [2,2,3] 15801065280,
xm 12 9 [1,3,3] 30875644800,
xm 12 9 [1,2,4] 83372889600,
xm 12 9 [1,1,5] 93232339200,
xp 12 9 [4,5] 83763808128000,
xp 12 9 [3,6] 90869357779200,
xp 12 9 [2,7] 108790723641600,
xp 12 9 [1,8] 154050267571200,
xm 12 9 [11] 64714469339520000,
xp 13 9 [1,1,2,2] 843242400,
xp 13 9 [1,1,1,3] 670269600,
xp 13 9 [2,3,3] 47481033600,
xp 13 9 [2,2,4] 70417226880,
xp 13 9 [1,3,4] 223567344000,
xp 13 9 [1,2,5] 339113174400,
xp 13 9 [1,1,6] 359913153600,
xm 13 9 [5,5] 160205677632000,
xm 13 9 [4,6] 331060079750400,
xm 13 9 [3,7] 366903849312000,
xm 13 9 [2,8] 445557349036800,
xm 13 9 [1,9] 637349589676800,
xp 13 9 [12] 323572346697600000,
xm 14 9 [1,2,2,2] 908107200,
xm 14 9 [1,1,2,3] 3178375200,
xm 14 9 [1,1,1,4] 1362160800,
xm 14 9 [3,3,3] 34248614400,
xm 14 9 [2,3,4] 306940233600,
xm 14 9 [1,4,4] 302010508800,
xm 14 9 [2,2,5] 255152177280,
xm 14 9 [1,3,5] 709361452800,
xm 14 9 [1,2,6] 1126052928000,
xm 14 9 [1,1,7] 1136042107200,
xp 14 9 [5,6] 1064432924755200,
xp 14 9 [4,7] 1125006269587200,
xp 14 9 [3,8] 1266188398675200,
xp 14 9 [2,9] 1554750099302400,
xp 14 9 [1,10] 2239294279622400,
xm 14 9 [13] 1359003856129920000,
xp 15 9 [2,2,2,2] 335134800,
xp 15 9 [1,2,2,3] 4605400800,
xp 15 9 [1,1,3,3] 2627024400,
xp 15 9 [1,1,2,4] 5772967200,
xp 15 9 [1,1,1,5] 2551348800,
xp 15 9 [3,3,4] 268151083200,
xp 15 9 [2,4,4] 376388812800,
xp 15 9 [2,3,5] 921599078400,
xp 15 9 [1,4,5] 1557187632000,
xp 15 9 [2,2,6] 782503001280,
xp 15 9 [1,3,6] 1997835840000,
xp 15 9 [1,2,7] 3216031378560,
xp 15 9 [1,1,8] 3095737444800,
xm 15 9 [6,6] 1545049957651200,
xm 15 9 [5,7] 3162428318649600,
xm 15 9 [4,8] 3397784796806400,
xm 15 9 [3,9] 3869048844460800,
xm 15 9 [2,10] 4793367574195200,
xm 15 9 [1,11] 6931371576729600,
xp 15 9 [14] 4983014139143040000,
xm 16 9 [2,2,2,3] 2097295200,
xm 16 9 [1,2,3,3] 7070263200,
xm 16 9 [1,2,2,4] 7718911200,
xm 16 9 [1,1,3,4] 8627018400,
xm 16 9 [1,1,2,5] 9989179200,
xm 16 9 [1,1,1,6] 4454049600,
xm 16 9 [3,4,4] 563631868800,
xm 16 9 [3,3,5] 711047937600,
xm 16 9 [2,4,5] 1859025168000,
xm 16 9 [1,5,5] 1703609107200,
xm 16 9 [2,3,6] 2501705606400,
xm 16 9 [1,4,6] 3771066499200,
xm 16 9 [2,2,7] 2107249784640,
xm 16 9 [1,3,7] 5082978700800,
xm 16 9 [1,2,8] 8170629667200,
xm 16 9 [1,1,9] 7536122193600,
xp 16 9 [6,7] 8238152367244800,
xp 16 9 [5,8] 8575761197203200,
xp 16 9 [4,9] 9328894454880000,
xp 16 9 [3,10] 10720645612934400,
xp 16 9 [2,11] 13378998599366400,
xp 16 9 [1,12] 19376496082944000,
xm 16 9 [15] 16372760742898560000,
xp 17 9 [2,2,3,3] 4572968400,
xp 17 9 [1,3,3,3] 3372969600,
xp 17 9 [2,2,2,4] 3308104800,
xp 17 9 [1,2,3,4] 21924302400,
xp 17 9 [1,1,4,4] 6518912400,
xp 17 9 [1,2,2,5] 12583771200,
xp 17 9 [1,1,3,5] 13816202400,
xp 17 9 [1,1,2,6] 16475659200,
xp 17 9 [1,1,1,7] 7329722400,
xp 17 9 [4,4,4] 336648312000,
xp 17 9 [3,4,5] 2545294752000,
xp 17 9 [2,5,5] 1949446699200,
xp 17 9 [3,3,6] 1783652270400,
xp 17 9 [2,4,6] 4401206409600,
xp 17 9 [1,5,6] 7255776528000,
xp 17 9 [2,3,7] 6182082466560,
xp 17 9 [1,4,7] 8570715753600,
xp 17 9 [2,2,8] 5118066233280,
xp 17 9 [1,3,8] 11868182726400,
xp 17 9 [1,2,9] 18900564883200,
xp 17 9 [1,1,10] 16773258902400,
xm 17 9 [7,7] 10041239169561600,
xm 17 9 [6,8] 20432103762470400,
xm 17 9 [5,9] 21546387102240000,
xm 17 9 [4,10] 23665963793472000,
xm 17 9 [3,11] 27399799108281600,
xm 17 9 [2,12] 34398178099084800,
xm 17 9 [1,13] 49796081144409600,
xm 18 9 [2,3,3,3] 4194590400,
xm 18 9 [2,2,3,4] 13556743200,
xm 18 9 [1,3,3,4] 14789174400,
xm 18 9 [1,2,4,4] 15891876000,
xm 18 9 [2,2,2,5] 5145940800,
xm 18 9 [1,2,3,5] 33599966400,
xm 18 9 [1,1,4,5] 19524304800,
xm 18 9 [1,2,2,6] 19848628800,
xm 18 9 [1,1,3,6] 21470248800,
xm 18 9 [1,1,2,7] 26010784800,
xm 18 9 [1,1,1,8] 11481069600,
xm 18 9 [4,4,5] 2016214200000,
xm 18 9 [3,5,5] 2478743467200,
xm 18 9 [3,4,6] 5712772665600,
xm 18 9 [2,5,6] 8129375654400,
xm 18 9 [1,6,6] 6943387651200,
xm 18 9 [3,3,7] 4168341777600,
xm 18 9 [2,4,7] 9849365285760,
xm 18 9 [1,5,7] 14897801318400,
xm 18 9 [2,3,8] 14085521049600,
xm 18 9 [1,4,8] 18355960022400,
xm 18 9 [2,2,9] 11429930191680,
xm 18 9 [1,3,9] 25763779641600,
xm 18 9 [1,2,10] 40486618972800,
xm 18 9 [1,1,11] 34703359891200,
xp 18 9 [7,8] 46193229655372800,
xp 18 9 [6,9] 47624342256691200,
xp 18 9 [5,10] 50731445052288000,
xp 18 9 [4,11] 56154587564275200,
xp 18 9 [3,12] 65417935879296000,
xp 18 9 [2,13] 82521671078246400,
xp 18 9 [1,14] 119218433516582400,
xp 10 10 [1,2,2] 103783680,
xp 10 10 [1,1,3] 302702400,
xm 10 10 [3,4] 762810048000,
xm 10 10 [2,5] 882680198400,
xm 10 10 [1,6] 1250074425600,
xp 10 10 [9] 340602470208000,
xm 11 10 [1,1,1,1] 21621600,
xm 11 10 [2,2,2] 311351040,
xm 11 10 [1,2,3] 6745939200,
xm 11 10 [1,1,4] 8778369600,
xp 11 10 [4,4] 5339670336000,
xp 11 10 [3,5] 11278691424000,
xp 11 10 [2,6] 13459705459200,
xp 11 10 [1,7] 19367591443200,
xm 11 10 [10] 6471446933952000,
xp 12 10 [1,1,1,2] 345945600,
xp 12 10 [2,2,3] 10352422080,
xp 12 10 [1,3,3] 25686460800,
xp 12 10 [1,2,4] 69708038400,
xp 12 10 [1,1,5] 84756672000,
xm 12 10 [4,5] 82655917344000,
xm 12 10 [3,6] 90374309625600,
xm 12 10 [2,7] 110126419603200,
xm 12 10 [1,8] 160506131385600,
xp 12 10 [11] 64714469339520000,
xm 13 10 [1,1,2,2] 1427025600,
xm 13 10 [1,1,1,3] 1167566400,
xm 13 10 [2,3,3] 48259411200,
xm 13 10 [2,2,4] 76670193600,
xm 13 10 [1,3,4] 288259171200,
xm 13 10 [1,2,5] 439523884800,
xm 13 10 [1,1,6] 504907603200,
xp 13 10 [5,5] 223121939040000,
xp 13 10 [4,6] 462504186144000,
xp 13 10 [3,7] 517770552499200,
xp 13 10 [2,8] 640466213587200]
def extC3_2 : PL := [
xp 13 10 [1,9] 942778732896000,
xm 13 10 [12] 453001285376640000,
xp 14 10 [1,2,2,2] 2075673600,
xp 14 10 [1,1,2,3] 7524316800,
xp 14 10 [1,1,1,4] 3372969600,
xp 14 10 [3,3,3] 45924278400,
xp 14 10 [2,3,4] 455869814400,
xp 14 10 [1,4,4] 547631884800,
xp 14 10 [2,2,5] 404756352000,
xp 14 10 [1,3,5] 1280431152000,
xp 14 10 [1,2,6] 2052322272000,
xp 14 10 [1,1,7] 2241208569600,
xm 14 10 [5,6] 1958195663424000,
xm 14 10 [4,7] 2080715411174400,
xm 14 10 [3,8] 2369113652505600,
xm 14 10 [2,9] 2963909338790400,
xm 14 10 [1,10] 4394439713664000,
xp 14 10 [13] 2491507069571520000,
xm 15 10 [2,2,2,2] 972972000,
xm 15 10 [1,2,2,3] 13881067200,
xm 15 10 [1,1,3,3] 8237829600,
xm 15 10 [1,1,2,4] 18291873600,
xm 15 10 [1,1,1,5] 8562153600,
xm 15 10 [3,3,4] 485967081600,
xm 15 10 [2,4,4] 750788438400,
xm 15 10 [2,3,5] 1866549484800,
xm 15 10 [1,4,5] 3728688163200,
xm 15 10 [2,2,6] 1680361562880,
xm 15 10 [1,3,6] 4754849299200,
xm 15 10 [1,2,7] 7777756546560,
xm 15 10 [1,1,8] 8111213510400,
xp 15 10 [6,6] 3589337297145600,
xp 15 10 [5,7] 7362983512684800,
xp 15 10 [4,8] 7966570195584000,
xp 15 10 [3,9] 9186248975904000,
xp 15 10 [2,10] 11595399258643200,
xp 15 10 [1,11] 17272329711436800,
xm 15 10 [14] 11460932520028992000,
xp 16 10 [2,2,2,3] 7697289600,
xp 16 10 [1,2,3,3] 26983756800,
xp 16 10 [1,2,2,4] 29837808000,
xp 16 10 [1,1,3,4] 34767532800,
xp 16 10 [1,1,2,5] 40994553600,
xp 16 10 [1,1,1,6] 19545926400,
xp 16 10 [3,4,4] 1290117628800,
xp 16 10 [3,3,5] 1692971280000,
xp 16 10 [2,4,5] 4801551955200,
xp 16 10 [1,5,5] 5187108326400,
xp 16 10 [2,3,6] 6574955587200,
xp 16 10 [1,4,6] 11428831814400,
xp 16 10 [2,2,7] 5846030910720,
xp 16 10 [1,3,7] 15336719798400,
xp 16 10 [1,2,8] 25216320729600,
xp 16 10 [1,1,9] 25212688300800,
xm 16 10 [6,7] 23461868516486400,
xm 16 10 [5,8] 24518404022112000,
xm 16 10 [4,9] 26892268891488000,
xm 16 10 [3,10] 31314278739744000,
xm 16 10 [2,11] 39811753831449600,
xm 16 10 [1,12] 59446484466969600,
xp 16 10 [15] 45843730080115968000,
xm 17 10 [2,2,3,3] 20562141600,
xm 17 10 [1,3,3,3] 15762146400,
xm 17 10 [2,2,2,4] 15091876800,
xm 17 10 [1,2,3,4] 104043139200,
xm 17 10 [1,1,4,4] 32756724000,
xm 17 10 [1,2,2,5] 60972912000,
xm 17 10 [1,1,3,5] 69794524800,
xm 17 10 [1,1,2,6] 85362076800,
xm 17 10 [1,1,1,7] 40886445600,
xm 17 10 [4,4,4] 920647728000,
xm 17 10 [3,4,5] 7335171043200,
xm 17 10 [2,5,5] 6287734252800,
xm 17 10 [3,3,6] 5386372992000,
xm 17 10 [2,4,6] 14237304681600,
xm 17 10 [1,5,6] 27203259283200,
xm 17 10 [2,3,7] 20362565583360,
xm 17 10 [1,4,7] 31912097817600,
xm 17 10 [2,2,8] 17755415758080,
xm 17 10 [1,3,8] 44150355849600,
xm 17 10 [1,2,9] 72350197920000,
xm 17 10 [1,1,10] 69604600665600,
xp 17 10 [7,7] 34229880407923200,
xp 17 10 [6,8] 69767355789331200,
xp 17 10 [5,9] 73953889289280000,
xp 17 10 [4,10] 81975000403296000,
xp 17 10 [3,11] 96200830242316800,
xp 17 10 [2,12] 123025612239129600,
xp 17 10 [1,13] 183789092924236800,
xp 18 10 [2,3,3,3] 22508085600,
xp 18 10 [2,2,3,4] 73945872000,
xp 18 10 [1,3,3,4] 83740456800,
xp 18 10 [1,2,4,4] 91589097600,
xp 18 10 [2,2,2,5] 28713484800,
xp 18 10 [1,2,3,5] 194853859200,
xp 18 10 [1,1,4,5] 119999880000,
xp 18 10 [1,2,2,6] 118313395200,
xp 18 10 [1,1,3,6] 133232299200,
xp 18 10 [1,1,2,7] 166637671200,
xp 18 10 [1,1,1,8] 79545866400,
xp 18 10 [4,4,5] 6702177081600,
xp 18 10 [3,5,5] 8687861582400,
xp 18 10 [3,4,6] 20320066166400,
xp 18 10 [2,5,6] 31983535584000,
xp 18 10 [1,6,6] 31413244262400,
xp 18 10 [3,3,7] 15515400700800,
xp 18 10 [2,4,7] 38880912470400,
xp 18 10 [1,5,7] 67142419344000,
xp 18 10 [2,3,8] 56679900076800,
xp 18 10 [1,4,8] 82152220550400,
xp 18 10 [2,2,9] 48397962412800,
xp 18 10 [1,3,9] 115710500505600,
xp 18 10 [1,2,10] 188064849772800,
xp 18 10 [1,1,11] 174660798312000,
xm 18 10 [7,8] 185305416078182400,
xm 18 10 [6,9] 191611750442112000,
xm 18 10 [5,10] 205378323486336000,
xm 18 10 [4,11] 229570517240064000,
xm 18 10 [3,12] 271127580461337600,
xm 18 10 [2,13] 348390913360089600,
xm 18 10 [1,14] 519872903694144000,
xp 11 11 [1,1,1,1] 5405400,
xp 11 11 [2,2,2] 34594560,
xp 11 11 [1,2,3] 1037836800,
xp 11 11 [1,1,4] 1513512000,
xm 11 11 [4,4] 1349043696000,
xm 11 11 [3,5] 2851456608000,
xm 11 11 [2,6] 3436277644800,
xm 11 11 [1,7] 5070697632000,
xp 11 11 [10] 1677782538432000,
xm 12 11 [1,1,1,2] 194594400,
xm 12 11 [2,2,3] 3632428800,
xm 12 11 [1,3,3] 10749024000,
xm 12 11 [1,2,4] 29837808000,
xm 12 11 [1,1,5] 38529691200,
xp 12 11 [4,5] 44242982784000,
xp 12 11 [3,6] 48547410912000,
xp 12 11 [2,7] 59883702278400,
xp 12 11 [1,8] 89417424096000,
xm 12 11 [11] 35233433307072000,
xp 13 11 [1,1,2,2] 1329728400,
xp 13 11 [1,1,1,3] 1102701600,
xp 13 11 [2,3,3] 29949004800,
xp 13 11 [2,2,4] 50464814400,
xp 13 11 [1,3,4] 215351136000,
xp 13 11 [1,2,5] 331848316800,
xp 13 11 [1,1,6] 402032030400,
xm 13 11 [5,5] 189113324400000,
xm 13 11 [4,6] 392520256128000,
xm 13 11 [3,7] 441978368832000,
xm 13 11 [2,8] 554239618732800,
xm 13 11 [1,9] 835552029312000,
xp 13 11 [12] 387567766377792000,
xm 14 11 [1,2,2,2] 2789186400,
xm 14 11 [1,1,2,3] 10313503200,
xm 14 11 [1,1,1,4] 4735130400,
xm 14 11 [3,3,3] 41019264000,
xm 14 11 [2,3,4] 438486048000,
xm 14 11 [1,4,4] 614053440000,
xm 14 11 [2,2,5] 409556347200,
xm 14 11 [1,3,5] 1437922886400,
xm 14 11 [1,2,6] 2318786870400,
xm 14 11 [1,1,7] 2672818948800,
xp 14 11 [5,6] 2330766101664000,
xp 14 11 [4,7] 2483338489632000,
xp 14 11 [3,8] 2848742664768000,
xp 14 11 [2,9] 3616025789376000,
xp 14 11 [1,10] 5491689211008000,
xm 14 11 [13] 2971352875563072000,
xp 15 11 [2,2,2,2] 1735133400,
xp 15 11 [1,2,2,3] 25362136800,
xp 15 11 [1,1,3,3] 15437822400,
xp 15 11 [1,1,2,4] 34443208800,
xp 15 11 [1,1,1,5] 16670253600,
xp 15 11 [3,3,4] 607505184000,
xp 15 11 [2,4,4] 1002031430400,
xp 15 11 [2,3,5] 2525575852800,
xp 15 11 [1,4,5] 5755064515200,
xp 15 11 [2,2,6] 2370808440000,
xp 15 11 [1,3,6] 7333354828800,
xp 15 11 [1,2,7] 12076528464000,
xp 15 11 [1,1,8] 13326992078400,
xm 15 11 [6,6] 5607098825328000,
xm 15 11 [5,7] 11514524269248000,
xm 15 11 [4,8] 12508649977824000,
xm 15 11 [3,9] 14549810315040000,
xm 15 11 [2,10] 18641863304064000,
xm 15 11 [1,11] 28459228621824000,
xp 15 11 [14] 17828117253378432000,
xm 16 11 [2,2,2,3] 17708090400,
xm 16 11 [1,2,3,3] 63826963200,
xm 16 11 [1,2,2,4] 71026956000,
xm 16 11 [1,1,3,4] 85232347200,
xm 16 11 [1,1,2,5] 101383682400,
xm 16 11 [1,1,1,6] 50399949600,
xm 16 11 [3,4,4] 2091241152000,
xm 16 11 [3,3,5] 2822248915200,
xm 16 11 [2,4,5] 8464337481600,
xm 16 11 [1,5,5] 10433113891200,
xm 16 11 [2,3,6] 11757653107200,
xm 16 11 [1,4,6] 22965512169600,
xm 16 11 [2,2,7] 10851595634880,
xm 16 11 [1,3,7] 30749028710400,
xm 16 11 [1,2,8] 51056121916800,
xm 16 11 [1,1,9] 54151340443200,
xp 16 11 [6,7] 46095107375116800,
xp 16 11 [5,8] 48270625026624000,
xp 16 11 [4,9] 53217095323392000,
xp 16 11 [3,10] 62565111921312000,
xp 16 11 [2,11] 80755584195686400,
xp 16 11 [1,12] 123676541404416000,
xm 16 11 [15] 89140586266892160000,
xp 17 11 [2,2,3,3] 58897238400,
xp 17 11 [1,3,3,3] 46508061600,
xp 17 11 [2,2,2,4] 43567524000,
xp 17 11 [1,2,3,4] 309534825600,
xp 17 11 [1,1,4,4] 101448547200,
xp 17 11 [1,2,2,5] 183372789600,
xp 17 11 [1,1,3,5] 216713296800,
xp 17 11 [1,1,2,6] 268475407200,
xp 17 11 [1,1,1,7] 135005270400,
xp 17 11 [4,4,4] 1832646816000,
xp 17 11 [3,4,5] 15122838931200,
xp 17 11 [2,5,5] 14018840035200,
xp 17 11 [3,3,6] 11472878102400,
xp 17 11 [2,4,6] 31860292464000,
xp 17 11 [1,5,6] 68655498912000,
xp 17 11 [2,3,7] 46165056537600,
xp 17 11 [1,4,7] 80343789926400,
xp 17 11 [2,2,8] 41706639374400,
xp 17 11 [1,3,8] 110909467468800,
xp 17 11 [1,2,9] 184283231932800,
xp 17 11 [1,1,10] 188425887249600,
xm 17 11 [7,7] 82019505526358400,
xm 17 11 [6,8] 167315726305728000,
xm 17 11 [5,9] 177884363520864000,
xm 17 11 [4,10] 198377564216832000,
xm 17 11 [3,11] 235193797238400000,
xm 17 11 [2,12] 305391743732275200,
xm 17 11 [1,13] 468341011442304000,
xm 18 11 [2,3,3,3] 78032354400,
xm 18 11 [2,2,3,4] 258810552000,
xm 18 11 [1,3,3,4] 302205103200,
xm 18 11 [1,2,4,4] 333923990400,
xm 18 11 [2,2,2,5] 101772871200,
xm 18 11 [1,2,3,5] 712604692800,
xm 18 11 [1,1,4,5] 458269812000,
xm 18 11 [1,2,2,6] 439199560800,
xm 18 11 [1,1,3,6] 511199488800,
xm 18 11 [1,1,2,7] 650334484800,
xm 18 11 [1,1,1,8] 327696969600,
xm 18 11 [4,4,5] 16366686336000,
xm 18 11 [3,5,5] 21964778035200,
xm 18 11 [3,4,6] 51925050777600,
xm 18 11 [2,5,6] 87809814892800,
xm 18 11 [1,6,6] 96840292348800,
xm 18 11 [3,3,7] 40899702729600,
xm 18 11 [2,4,7] 107174292825600,
xm 18 11 [1,5,7] 206726971651200,
xm 18 11 [2,3,8] 158178782361600,
xm 18 11 [1,4,8] 252051120921600,
xm 18 11 [2,2,9] 139875622286400,
xm 18 11 [1,3,9] 354678650726400,
xm 18 11 [1,2,10] 586927067126400,
xm 18 11 [1,1,11] 580081625323200,
xp 18 11 [7,8] 529678379034604800,
xp 18 11 [6,9] 548588454654240000,
xp 18 11 [5,10] 590231801551392000,
xp 18 11 [4,11] 664264976383008000,
xp 18 11 [3,12] 792897320831616000,
xp 18 11 [2,13] 1034568649841126400,
xp 18 11 [1,14] 1586223548477568000,
xp 12 12 [1,1,1,2] 43243200,
xp 12 12 [2,2,3] 518918400,
xp 12 12 [1,3,3] 1667952000,
xp 12 12 [1,2,4] 5016211200,
xp 12 12 [1,1,5] 6745939200,
xm 12 12 [4,5] 9916530624000,
xm 12 12 [3,6] 10891059379200,
xm 12 12 [2,7] 13535052410880,
xm 12 12 [1,8] 20629082073600,
xp 12 12 [11] 8053356184473600,
xm 13 12 [1,1,2,2] 648648000,
xm 13 12 [1,1,1,3] 540540000,
xm 13 12 [2,3,3] 10193040000,
xm 13 12 [2,2,4] 18681062400,
xm 13 12 [1,3,4] 84756672000,
xm 13 12 [1,2,5] 134659324800,
xm 13 12 [1,1,6] 168389020800,
xp 13 12 [5,5] 89248775616000,
xp 13 12 [4,6] 185319252518400,
xp 13 12 [3,7] 209259033984000,
xp 13 12 [2,8] 264913032384000,
xp 13 12 [1,9] 407461473619200,
xm 13 12 [12] 185227192242892800,
xp 14 12 [1,2,2,2] 2205403200,
xp 14 12 [1,1,2,3] 8237829600,
xp 14 12 [1,1,1,4] 3827023200,
xp 14 12 [3,3,3] 22980672000,
xp 14 12 [2,3,4] 263610547200,
xp 14 12 [1,4,4] 411242832000,
xp 14 12 [2,2,5] 259718659200,
xp 14 12 [1,3,5] 972193622400,
xp 14 12 [1,2,6] 1587111926400,
xp 14 12 [1,1,7] 1892235945600,
xm 14 12 [5,6] 1732930072473600,
xm 14 12 [4,7] 1848603210854400,
xm 14 12 [3,8] 2129989826764800,
xm 14 12 [2,9] 2733056553427200,
xm 14 12 [1,10] 4234824046252800,
xp 14 12 [13] 2222726306914713600,
xm 15 12 [2,2,2,2] 1945944000,
xm 15 12 [1,2,2,3] 28864836000,
xm 15 12 [1,1,3,3] 17837820000,
xm 15 12 [1,1,2,4] 39891852000,
xm 15 12 [1,1,1,5] 19675656000,
xm 15 12 [3,3,4] 512246592000,
xm 15 12 [2,4,4] 884323440000,
xm 15 12 [2,3,5] 2273900428800,
xm 15 12 [1,4,5] 5682588912000,
xm 15 12 [2,2,6] 2210592384000,
xm 15 12 [1,3,6] 7290284601600,
xm 15 12 [1,2,7] 12078344678400,
xm 15 12 [1,1,8] 13839294268800,
xp 15 12 [6,6] 5823531646732800,
xp 15 12 [5,7] 11964719192025600,
xp 15 12 [4,8] 13025410196198400,
xp 15 12 [3,9] 15237396913939200,
xp 15 12 [2,10] 19751158800172800,
xp 15 12 [1,11] 30775325419238400,
xm 15 12 [14] 18522719224289280000,
xp 16 12 [2,2,2,3] 26529703200,
xp 16 12 [1,2,3,3] 97426929600,
xp 16 12 [1,2,2,4] 108778269600,
xp 16 12 [1,1,3,4] 133102569600,
xp 16 12 [1,1,2,5] 159048489600,
xp 16 12 [1,1,1,6] 81124243200,
xp 16 12 [3,4,4] 2378376000000,
xp 16 12 [3,3,5] 3299653843200,
xp 16 12 [2,4,5] 10231514092800,
xp 16 12 [1,5,5] 13960202256000,
xp 16 12 [2,3,6] 14479639574400,
xp 16 12 [1,4,6] 30803342169600,
xp 16 12 [2,2,7] 13731359241600,
xp 16 12 [1,3,7] 41373623491200,
xp 16 12 [1,2,8] 69045206630400,
xp 16 12 [1,1,9] 76320183139200,
xm 16 12 [6,7] 62578212016320000,
xm 16 12 [5,8] 65599590530073600,
xm 16 12 [4,9] 72541276647840000,
xm 16 12 [3,10] 85856978099692800,
xm 16 12 [2,11] 112171746855168000,
xm 16 12 [1,12] 175448116876032000,
xp 16 12 [15] 120397674957880320000,
xm 17 12 [2,2,3,3] 112540428000,
xm 17 12 [1,3,3,3] 90810720000,
xm 17 12 [2,2,2,4] 83610727200,
xm 17 12 [1,2,3,4] 607134528000,
xm 17 12 [1,1,4,4] 204518714400,
xm 17 12 [1,2,2,5] 361815854400,
xm 17 12 [1,1,3,5] 437513076000,
xm 17 12 [1,1,2,6] 545772427200,
xm 17 12 [1,1,1,7] 283329446400,
xm 17 12 [4,4,4] 2641294656000,
xm 17 12 [3,4,5] 22412085696000,
xm 17 12 [2,5,5] 21883826764800,
xm 17 12 [3,3,6] 17509344652800,
xm 17 12 [2,4,6] 50075366140800,
xm 17 12 [1,5,6] 118465178832000,
xm 17 12 [2,3,7] 73608834499200,
xm 17 12 [1,4,7] 138899147587200,
xm 17 12 [2,2,8] 68129056195200,
xm 17 12 [1,3,8] 191886424329600,
xm 17 12 [1,2,9] 320900954774400,
xm 17 12 [1,1,10] 343051246137600,
xp 17 12 [7,7] 139429027204346880,
xp 17 12 [6,8] 284549201461324800,
xp 17 12 [5,9] 303017098928544000,
xp 17 12 [4,10] 339230042607456000,
xp 17 12 [3,11] 405203405390784000,
xp 17 12 [2,12] 532729511602928640,
xp 17 12 [1,13] 835032369377606400,
xp 18 12 [2,3,3,3] 183826843200,
xp 18 12 [2,2,3,4] 613102089600,
xp 18 12 [1,3,3,4] 733101969600,
xp 18 12 [1,2,4,4] 814831617600,
xp 18 12 [2,2,2,5] 242853811200,
xp 18 12 [1,2,3,5] 1741879339200,
xp 18 12 [1,1,4,5] 1155696141600,
xp 18 12 [1,2,2,6] 1082723241600,
xp 18 12 [1,1,3,6] 1292560869600,
xp 18 12 [1,1,2,7] 1660019961600,
xp 18 12 [1,1,1,8] 868150483200,
xp 18 12 [4,4,5] 29473700256000,
xp 18 12 [3,5,5] 40491202752000,
xp 18 12 [3,4,6] 96832249113600,
xp 18 12 [2,5,6] 171493969046400,
xp 18 12 [1,6,6] 207823705689600,
xp 18 12 [3,3,7] 78231619065600,
xp 18 12 [2,4,7] 210897345859200]
def extC3_3 : PL := [
xp 18 12 [1,5,7] 443969458732800,
xp 18 12 [2,3,8] 314782906838400,
xp 18 12 [1,4,8] 541647804297600,
xp 18 12 [2,2,9] 284982720422400,
xp 18 12 [1,3,9] 761980297478400,
xp 18 12 [1,2,10] 1272287506089600,
xp 18 12 [1,1,11] 1318035092774400,
xm 18 12 [7,8] 1094475207361536000,
xm 18 12 [6,9] 1134513863971488000,
xm 18 12 [5,10] 1223358365829600000,
xm 18 12 [4,11] 1383109161148915200,
xm 18 12 [3,12] 1664297203593024000,
xm 18 12 [2,13] 2199213383054688000,
xm 18 12 [1,14] 3449353120762348800,
xp 13 13 [1,1,2,2] 129729600,
xp 13 13 [1,1,1,3] 108108000,
xp 13 13 [2,3,3] 1389960000,
xp 13 13 [2,2,4] 3009726720,
xp 13 13 [1,3,4] 13318905600,
xp 13 13 [1,2,5] 22572950400,
xp 13 13 [1,1,6] 28540512000,
xm 13 13 [5,5] 17974578585600,
xm 13 13 [4,6] 37334103206400,
xm 13 13 [3,7] 42195849696000,
xm 13 13 [2,8] 53731405728000,
xm 13 13 [1,9] 84061148371200,
xp 13 13 [12] 37887380231500800,
xm 14 13 [1,2,2,2] 951350400,
xm 14 13 [1,1,2,3] 3567564000,
xm 14 13 [1,1,1,4] 1664863200,
xm 14 13 [3,3,3] 6949800000,
xm 14 13 [2,3,4] 89513424000,
xm 14 13 [1,4,4] 149736787200,
xm 14 13 [2,2,5] 94806391680,
xm 14 13 [1,3,5] 359869910400,
xm 14 13 [1,2,6] 602204803200,
xm 14 13 [1,1,7] 729685756800,
xp 14 13 [5,6] 731447657740800,
xp 14 13 [4,7] 780714289555200,
xp 14 13 [3,8] 901594774080000,
xp 14 13 [2,9] 1165617342489600,
xp 14 13 [1,10] 1836845038828800,
xm 14 13 [13] 947184505787520000,
xp 15 13 [2,2,2,2] 1340539200,
xp 15 13 [1,2,2,3] 20043223200,
xp 15 13 [1,1,3,3] 12486474000,
xp 15 13 [1,1,2,4] 27956728800,
xp 15 13 [1,1,1,5] 13924310400,
xp 15 13 [3,3,4] 273303201600,
xp 15 13 [2,4,4] 494601307200,
xp 15 13 [2,3,5] 1309490582400,
xp 15 13 [1,4,5] 3457639785600,
xp 15 13 [2,2,6] 1319868950400,
xp 15 13 [1,3,6] 4495130640000,
xp 15 13 [1,2,7] 7525181664000,
xp 15 13 [1,1,8] 8811883080000,
xm 15 13 [6,6] 3854958653145600,
xm 15 13 [5,7] 7922218239936000,
xm 15 13 [4,8] 8633938695782400,
xm 15 13 [3,9] 10135038340627200,
xm 15 13 [2,10] 13252073753318400,
xm 15 13 [1,11] 21004965805824000,
xp 15 13 [14] 12313398575237760000,
xm 16 13 [2,2,2,3] 25924298400,
xm 16 13 [1,2,3,3] 96324228000,
xm 16 13 [1,2,2,4] 107740432800,
xm 16 13 [1,1,3,4] 133426893600,
xm 16 13 [1,1,2,5] 159826867200,
xm 16 13 [1,1,1,6] 82767484800,
xm 16 13 [3,4,4] 1832978347200,
xm 16 13 [3,3,5] 2638570334400,
xm 16 13 [2,4,5] 8352770025600,
xm 16 13 [1,5,5] 12283057987200,
xm 16 13 [2,3,6] 12122193283200,
xm 16 13 [1,4,6] 27224275478400,
xm 16 13 [2,2,7] 11755836892800,
xm 16 13 [1,3,7] 36873390153600,
xm 16 13 [1,2,8] 61850143555200,
xm 16 13 [1,1,9] 70216794648000,
xp 16 13 [6,7] 57644116885555200,
xp 16 13 [5,8] 60460945549804800,
xp 16 13 [4,9] 66973650647904000,
xp 16 13 [3,10] 79620357309292800,
xp 16 13 [2,11] 105013934337312000,
xp 16 13 [1,12] 167168151101952000,
xm 16 13 [15] 110820587177139840000,
xp 17 13 [2,2,3,3] 145589043600,
xp 17 13 [1,3,3,3] 119243124000,
xp 17 13 [2,2,2,4] 108432324000,
xp 17 13 [1,2,3,4] 799264065600,
xp 17 13 [1,1,4,4] 274151077200,
xp 17 13 [1,2,2,5] 477923846400,
xp 17 13 [1,1,3,5] 586961575200,
xp 17 13 [1,1,2,6] 735047913600,
xp 17 13 [1,1,1,7] 389448259200,
xp 17 13 [4,4,4] 2687636952000,
xp 17 13 [3,4,5] 23554484553600,
xp 17 13 [2,5,5] 23900343667200,
xp 17 13 [3,3,6] 19035224208000,
xp 17 13 [2,4,6] 55228225852800,
xp 17 13 [1,5,6] 139976422185600,
xp 17 13 [2,3,7] 82652025456000,
xp 17 13 [1,4,7] 164894710780800,
xp 17 13 [2,2,8] 77828549198400,
xp 17 13 [1,3,8] 228837825216000,
xp 17 13 [1,2,9] 384160999622400,
xp 17 13 [1,1,10] 423557846712000,
xm 17 13 [7,7] 167240044132761600,
xm 17 13 [6,8] 341387551195891200,
xm 17 13 [5,9] 363877417570867200,
xm 17 13 [4,10] 408325189944672000,
xm 17 13 [3,11] 490311017580384000,
xm 17 13 [2,12] 651099466521504000,
xm 17 13 [1,13] 1039386282558624000,
xm 18 13 [2,3,3,3] 300864564000,
xm 18 13 [2,2,3,4] 1006766560800,
xm 18 13 [1,3,3,4] 1225101477600,
xm 18 13 [1,2,4,4] 1366377012000,
xm 18 13 [2,2,2,5] 400518518400,
xm 18 13 [1,2,3,5] 2923975454400,
xm 18 13 [1,1,4,5] 1982852071200,
xm 18 13 [1,2,2,6] 1826592768000,
xm 18 13 [1,1,3,6] 2221165346400,
xm 18 13 [1,1,2,7] 2868321456000,
xm 18 13 [1,1,1,8] 1538333596800,
xm 18 13 [4,4,5] 38679817176000,
xm 18 13 [3,5,5] 54286907875200,
xm 18 13 [3,4,6] 131732625024000,
xm 18 13 [2,5,6] 240124559875200,
xm 18 13 [1,6,6] 313605740448000,
xm 18 13 [3,3,7] 109162009756800,
xm 18 13 [2,4,7] 298523947962240,
xm 18 13 [1,5,7] 671135155891200,
xm 18 13 [2,3,8] 451214078515200,
xm 18 13 [1,4,8] 821727005299200,
xm 18 13 [2,2,9] 414952501803840,
xm 18 13 [1,3,9] 1158419425363200,
xm 18 13 [1,2,10] 1942893451699200,
xm 18 13 [1,1,11] 2083036403448000,
xp 18 13 [7,8] 1638574370764531200,
xp 18 13 [6,9] 1699340745457555200,
xp 18 13 [5,10] 1834825695896793600,
xp 18 13 [4,11] 2080594042906579200,
xp 18 13 [3,12] 2518471431796320000,
xp 18 13 [2,13] 3362581258388352000,
xp 18 13 [1,14] 5375447474882284800,
xp 14 14 [1,2,2,2] 172972800,
xp 14 14 [1,1,2,3] 648648000,
xp 14 14 [1,1,1,4] 302702400,
xp 14 14 [3,3,3] 772200000,
xp 14 14 [2,3,4] 12972960000,
xp 14 14 [1,4,4] 22601779200,
xp 14 14 [2,2,5] 15256200960,
xp 14 14 [1,3,5] 55524268800,
xp 14 14 [1,2,6] 97037740800,
xp 14 14 [1,1,7] 117491774400,
xm 14 14 [5,6] 133775087846400,
xm 14 14 [4,7] 142845262560000,
xm 14 14 [3,8] 165106861920000,
xm 14 14 [2,9] 214453407168000,
xm 14 14 [1,10] 342819635558400,
xp 14 14 [13] 175404538108800000,
xm 15 14 [2,2,2,2] 518918400,
xm 15 14 [1,2,2,3] 7783776000,
xm 15 14 [1,1,3,3] 4864860000,
xm 15 14 [1,1,2,4] 10897286400,
xm 15 14 [1,1,1,5] 5448643200,
xm 15 14 [3,3,4] 81081000000,
xm 15 14 [2,4,4] 158616057600,
xm 15 14 [2,3,5] 435891456000,
xm 15 14 [1,4,5] 1176906931200,
xm 15 14 [2,2,6] 458931432960,
xm 15 14 [1,3,6] 1558311955200,
xm 15 14 [1,2,7] 2656550856960,
xm 15 14 [1,1,8] 3135175243200,
xp 15 14 [6,6] 1471525966310400,
xp 15 14 [5,7] 3024683505043200,
xp 15 14 [4,8] 3298426971840000,
xp 15 14 [3,9] 3879083688480000,
xp 15 14 [2,10] 5103073642867200,
xp 15 14 [1,11] 8205881869785600,
xm 15 14 [14] 4735922528937600000,
xp 16 14 [2,2,2,3] 15956740800,
xp 16 14 [1,2,3,3] 59675616000,
xp 16 14 [1,2,2,4] 66810744000,
xp 16 14 [1,1,3,4] 83286403200,
xp 16 14 [1,1,2,5] 99891792000,
xp 16 14 [1,1,1,6] 52151299200,
xp 16 14 [3,4,4] 897772075200,
xp 16 14 [3,3,5] 1363198636800,
xp 16 14 [2,4,5] 4406136134400,
xp 16 14 [1,5,5] 6818068857600,
xp 16 14 [2,3,6] 6594415027200,
xp 16 14 [1,4,6] 15197044262400,
xp 16 14 [2,2,7] 6538916704320,
xp 16 14 [1,3,7] 20843135913600,
xp 16 14 [1,2,8] 35247532320000,
xp 16 14 [1,1,9] 40590316166400,
xm 16 14 [6,7] 34387030175097600,
xm 16 14 [5,8] 36080635573382400,
xm 16 14 [4,9] 40005949183200000,
xm 16 14 [3,10] 47691341368070400,
xm 16 14 [2,11] 63350453925158400,
xm 16 14 [1,12] 102344734844352000,
xp 16 14 [15] 66302915405126400000,
xm 17 14 [2,2,3,3] 126162036000,
xm 17 14 [1,3,3,3] 104324220000,
xm 17 14 [2,2,2,4] 94097203200,
xm 17 14 [1,2,3,4] 700280380800,
xm 17 14 [1,1,4,4] 242918676000,
xm 17 14 [1,2,2,5] 419545526400,
xm 17 14 [1,1,3,5] 520345425600,
xm 17 14 [1,1,2,6] 653058806400,
xm 17 14 [1,1,1,7] 350334784800,
xm 17 14 [4,4,4] 1853043192000,
xm 17 14 [3,4,5] 17014296499200,
xm 17 14 [2,5,5] 17926036128000,
xm 17 14 [3,3,6] 14347055923200,
xm 17 14 [2,4,6] 41908368902400,
xm 17 14 [1,5,6] 111337575148800,
xm 17 14 [2,3,7] 64075732680960,
xm 17 14 [1,4,7] 131981792342400,
xm 17 14 [2,2,8] 61186005840960,
xm 17 14 [1,3,8] 184622864025600,
xm 17 14 [1,2,9] 311217159052800,
xm 17 14 [1,1,10] 349853401497600,
xp 17 14 [7,7] 138348493694611200,
xp 17 14 [6,8] 282458066687596800,
xp 17 14 [5,9] 301237284059712000,
xp 17 14 [4,10] 338511645055584000,
xp 17 14 [3,11] 407921229613497600,
xp 17 14 [2,12] 545950438005772800,
xp 17 14 [1,13] 884974362938265600,
xp 18 14 [2,3,3,3] 342810468000,
xp 18 14 [2,2,3,4] 1149404256000,
xp 18 14 [1,3,3,4] 1415933719200,
xp 18 14 [1,2,4,4] 1582441660800,
xp 18 14 [2,2,2,5] 458464406400,
xp 18 14 [1,2,3,5] 3388537152000,
xp 18 14 [1,1,4,5] 2332019289600,
xp 18 14 [1,2,2,6] 2123154633600,
xp 18 14 [1,1,3,6] 2614829817600,
xp 18 14 [1,1,2,7] 3387693909600,
xp 18 14 [1,1,1,8] 1847284639200,
xp 18 14 [4,4,5] 36172936800000,
xp 18 14 [3,5,5] 52166347833600,
xp 18 14 [3,4,6] 128887395436800,
xp 18 14 [2,5,6] 239768322393600,
xp 18 14 [1,6,6] 331499084716800,
xp 18 14 [3,3,7] 109885122547200,
xp 18 14 [2,4,7] 301968165058560,
xp 18 14 [1,5,7] 711011094393600,
xp 18 14 [2,3,8] 463118326070400,
xp 18 14 [1,4,8] 875217632889600,
xp 18 14 [2,2,9] 430598695887360,
xp 18 14 [1,3,9] 1239637160361600,
xp 18 14 [1,2,10] 2085244012051200,
xp 18 14 [1,1,11] 2288974748860800,
xm 18 14 [7,8] 1759751825024793600,
xm 18 14 [6,9] 1825601932752998400,
xm 18 14 [5,10] 1972755273513024000,
xm 18 14 [4,11] 2241217351256083200,
xm 18 14 [3,12] 2724359317583904000,
xm 18 14 [2,13] 3667968185520038400,
xm 18 14 [1,14] 5958141350479718400,
xp 15 15 [2,2,2,2] 86486400,
xp 15 15 [1,2,2,3] 1297296000,
xp 15 15 [1,1,3,3] 810810000,
xp 15 15 [1,1,2,4] 1816214400,
xp 15 15 [1,1,1,5] 908107200,
xp 15 15 [3,3,4] 9729720000,
xp 15 15 [2,4,4] 22198176000,
xp 15 15 [2,3,5] 63567504000,
xp 15 15 [1,4,5] 170724153600,
xp 15 15 [2,2,6] 70780469760,
xp 15 15 [1,3,6] 231178147200,
xp 15 15 [1,2,7] 405655810560,
xp 15 15 [1,1,8] 476150875200,
xm 15 15 [6,6] 246471470784000,
xm 15 15 [5,7] 506691125740800,
xm 15 15 [4,8] 552801176928000,
xm 15 15 [3,9] 650638052064000,
xm 15 15 [2,10] 859172157043200,
xm 15 15 [1,11] 1398543206860800,
xp 15 15 [14] 801463812589440000,
xm 16 15 [2,2,2,3] 5621616000,
xm 16 15 [1,2,3,3] 21081060000,
xm 16 15 [1,2,2,4] 23610787200,
xm 16 15 [1,1,3,4] 29513484000,
xm 16 15 [1,1,2,5] 35416180800,
xm 16 15 [1,1,1,6] 18551332800,
xm 16 15 [3,4,4] 247206960000,
xm 16 15 [3,3,5] 405405000000,
xm 16 15 [2,4,5] 1356712156800,
xm 16 15 [1,5,5] 2160634694400,
xm 16 15 [2,3,6] 2100581683200,
xm 16 15 [1,4,6] 4847476233600,
xm 16 15 [2,2,7] 2137113538560,
xm 16 15 [1,3,7] 6753809462400,
xm 16 15 [1,2,8] 11572658697600,
xm 16 15 [1,1,9] 13369889332800,
xp 16 15 [6,7] 11981860623532800,
xp 16 15 [5,8] 12575577478464000,
xp 16 15 [4,9] 13952086372224000,
xp 16 15 [3,10] 16657983774432000,
xp 16 15 [2,11] 22238244918489600,
xp 16 15 [1,12] 36376202672409600,
xm 16 15 [15] 23242450565093760000,
xp 17 15 [2,2,3,3] 70216146000,
xp 17 15 [1,3,3,3] 58378320000,
xp 17 15 [2,2,2,4] 52410758400,
xp 17 15 [1,2,3,4] 392172580800,
xp 17 15 [1,1,4,4] 136897160400,
xp 17 15 [1,2,2,5] 235199764800,
xp 17 15 [1,1,3,5] 293318625600,
xp 17 15 [1,1,2,6] 368561793600,
xp 17 15 [1,1,1,7] 199070071200,
xp 17 15 [4,4,4] 809728920000,
xp 17 15 [3,4,5] 7971365001600,
xp 17 15 [2,5,5] 8811611827200,
xp 17 15 [3,3,6] 7090630747200,
xp 17 15 [2,4,6] 20855849414400,
xp 17 15 [1,5,6] 56949218726400,
xp 17 15 [2,3,7] 32651850591360,
xp 17 15 [1,4,7] 67997769840000,
xp 17 15 [2,2,8] 31611808388160,
xp 17 15 [1,3,8] 96133006569600,
xp 17 15 [1,2,9] 163072961251200,
xp 17 15 [1,1,10] 185066409528000,
xm 17 15 [7,7] 75095292861388800,
xm 17 15 [6,8] 153337896391680000,
xm 17 15 [5,9] 163599380616672000,
xm 17 15 [4,10] 184001023350144000,
xm 17 15 [3,11] 222225565622860800,
xm 17 15 [2,12] 299177958464985600,
xm 17 15 [1,13] 491240647958860800,
xm 18 15 [2,3,3,3] 267026760000,
xm 18 15 [2,2,3,4] 896366671200,
xm 18 15 [1,3,3,4] 1113079968000,
xm 18 15 [1,2,4,4] 1245469024800,
xm 18 15 [2,2,2,5] 358096939200,
xm 18 15 [1,2,3,5] 2668018953600,
xm 18 15 [1,1,4,5] 1853446795200,
xm 18 15 [1,2,2,6] 1674679406400,
xm 18 15 [1,1,3,6] 2079435758400,
xm 18 15 [1,1,2,7] 2699218922400,
xm 18 15 [1,1,1,8] 1487198512800,
xm 18 15 [4,4,5] 23257129896000,
xm 18 15 [3,5,5] 34861574966400,
xm 18 15 [3,4,6] 87973014729600,
xm 18 15 [2,5,6] 166917368217600,
xm 18 15 [1,6,6] 240252473260800,
xm 18 15 [3,3,7] 77508117086400,
xm 18 15 [2,4,7] 213131981462400,
xm 18 15 [1,5,7] 516573753696000,
xm 18 15 [2,3,8] 332213894812800,
xm 18 15 [1,4,8] 639934408713600,
xm 18 15 [2,2,9] 311643839707200,
xm 18 15 [1,3,9] 912695217033600,
xm 18 15 [1,2,10] 1540375627190400,
xm 18 15 [1,1,11] 1715369225169600,
xp 18 15 [7,8] 1320901570513324800,
xp 18 15 [6,9] 1370667821114592000,
xp 18 15 [5,10] 1481967655328160000,
xp 18 15 [4,11] 1685637611225568000,
xp 18 15 [3,12] 2054901122091417600,
xp 18 15 [2,13] 2784830388269529600,
xp 18 15 [1,14] 4584804773028480000,
xp 16 16 [2,2,2,3] 864864000,
xp 16 16 [1,2,3,3] 3243240000,
xp 16 16 [1,2,2,4] 3632428800,
xp 16 16 [1,1,3,4] 4540536000,
xp 16 16 [1,1,2,5] 5448643200,
xp 16 16 [1,1,1,6] 2854051200,
xp 16 16 [3,4,4] 28252224000,
xp 16 16 [3,3,5] 51891840000,
xp 16 16 [2,4,5] 185253868800,
xp 16 16 [1,5,5] 297198720000,
xp 16 16 [2,3,6] 296821324800,
xp 16 16 [1,4,6] 671999328000,
xp 16 16 [2,2,7] 311662391040,
xp 16 16 [1,3,7] 953426073600,
xp 16 16 [1,2,8] 1666246982400,
xp 16 16 [1,1,9] 1911349440000,
xm 16 16 [6,7] 1851274602777600,
xm 16 16 [5,8] 1943437624128000,
xm 16 16 [4,9] 2157148977984000,
xm 16 16 [3,10] 2577372804864000,
xm 16 16 [2,11] 3451438364774400,
xm 16 16 [1,12] 5705466294528000,
xp 16 16 [15] 3622200088066560000,
xm 17 16 [2,2,3,3] 22702680000,
xm 17 16 [1,3,3,3] 18918900000,
xm 17 16 [2,2,2,4] 16951334400,
xm 17 16 [1,2,3,4] 127135008000,
xm 17 16 [1,1,4,4] 44497252800,
xm 17 16 [1,2,2,5] 76281004800,
xm 17 16 [1,1,3,5] 95351256000,
xm 17 16 [1,1,2,6] 119870150400,
xm 17 16 [1,1,1,7] 64929664800]
def extC3_4 : PL := [
xm 17 16 [4,4,4] 197765568000,
xm 17 16 [3,4,5] 2161295136000,
xm 17 16 [2,5,5] 2558880979200,
xm 17 16 [3,3,6] 2054916864000,
xm 17 16 [2,4,6] 6131539814400,
xm 17 16 [1,5,6] 16901691206400,
xm 17 16 [2,3,7] 9835579353600,
xm 17 16 [1,4,7] 20344628304000,
xm 17 16 [2,2,8] 9673676812800,
xm 17 16 [1,3,8] 29125592496000,
xm 17 16 [1,2,9] 49886220384000,
xm 17 16 [1,1,10] 56652397401600,
xp 17 16 [7,7] 24066569836108800,
xp 17 16 [6,8] 49146932907072000,
xp 17 16 [5,9] 52452780412032000,
xp 17 16 [4,10] 59027440215744000,
xp 17 16 [3,11] 71382020726016000,
xp 17 16 [2,12] 96499481273395200,
xp 17 16 [1,13] 160177111174080000,
xp 18 16 [2,3,3,3] 135675540000,
xp 18 16 [2,2,3,4] 455740084800,
xp 18 16 [1,3,3,4] 568539972000,
xp 18 16 [1,2,4,4] 636583147200,
xp 18 16 [2,2,2,5] 182226844800,
xp 18 16 [1,2,3,5] 1363977014400,
xp 18 16 [1,1,4,5] 952604452800,
xp 18 16 [1,2,2,6] 856993737600,
xp 18 16 [1,1,3,6] 1069101633600,
xp 18 16 [1,1,2,7] 1389209421600,
xp 18 16 [1,1,1,8] 769880311200,
xp 18 16 [4,4,5] 9672350688000,
xp 18 16 [3,5,5] 15313989600000,
xp 18 16 [3,4,6] 39596068512000,
xp 18 16 [2,5,6] 77061976992000,
xp 18 16 [1,6,6] 113669594438400,
xp 18 16 [3,3,7] 36230363769600,
xp 18 16 [2,4,7] 99751943491200,
xp 18 16 [1,5,7] 245061203587200,
xp 18 16 [2,3,8] 158148425635200,
xp 18 16 [1,4,8] 305725964544000,
xp 18 16 [2,2,9] 149672153030400,
xp 18 16 [1,3,9] 439818370992000,
xp 18 16 [1,2,10] 745923232454400,
xp 18 16 [1,1,11] 835986018067200,
xm 18 16 [7,8] 657731419586841600,
xm 18 16 [6,9] 682647492054528000,
xm 18 16 [5,10] 738384870263040000,
xm 18 16 [4,11] 840503683603584000,
xm 18 16 [3,12] 1026521327639808000,
xm 18 16 [2,13] 1398047414578214400,
xm 18 16 [1,14] 2327868798615360000,
xp 17 17 [2,2,3,3] 3243240000,
xp 17 17 [1,3,3,3] 2702700000,
xp 17 17 [2,2,2,4] 2421619200,
xp 17 17 [1,2,3,4] 18162144000,
xp 17 17 [1,1,4,4] 6356750400,
xp 17 17 [1,2,2,5] 10897286400,
xp 17 17 [1,1,3,5] 13621608000,
xp 17 17 [1,1,2,6] 17124307200,
xp 17 17 [1,1,1,7] 9275666400,
xp 17 17 [4,4,4] 19776556800,
xp 17 17 [3,4,5] 254270016000,
xp 17 17 [2,5,5] 332862566400,
xp 17 17 [3,3,6] 262980432000,
xp 17 17 [2,4,6] 807437030400,
xp 17 17 [1,5,6] 2209035628800,
xp 17 17 [2,3,7] 1325577052800,
xp 17 17 [1,4,7] 2683759478400,
xp 17 17 [2,2,8] 1328950022400,
xp 17 17 [1,3,8] 3895779888000,
xp 17 17 [1,2,9] 6766177017600,
xp 17 17 [1,1,10] 7626284265600,
xm 17 17 [7,7] 3450815039992320,
xm 17 17 [6,8] 7047577125388800,
xm 17 17 [5,9] 7523530119705600,
xm 17 17 [4,10] 8470259724326400,
xm 17 17 [3,11] 10249726052966400,
xm 17 17 [2,12] 13892039418216960,
xm 17 17 [1,13] 23271620404032000,
xm 18 17 [2,3,3,3] 40540500000,
xm 18 17 [2,2,3,4] 136216080000,
xm 18 17 [1,3,3,4] 170270100000,
xm 18 17 [1,2,4,4] 190702512000,
xm 18 17 [2,2,2,5] 54486432000,
xm 18 17 [1,2,3,5] 408648240000,
xm 18 17 [1,1,4,5] 286053768000,
xm 18 17 [1,2,2,6] 256864608000,
xm 18 17 [1,1,3,6] 321080760000,
xm 18 17 [1,1,2,7] 417404988000,
xm 18 17 [1,1,1,8] 231891660000,
xm 18 17 [4,4,5] 2313857145600,
xm 18 17 [3,5,5] 3952742976000,
xm 18 17 [3,4,6] 10515881376000,
xm 18 17 [2,5,6] 21217016620800,
xm 18 17 [1,6,6] 31602250310400,
xm 18 17 [3,3,7] 10046630880000,
xm 18 17 [2,4,7] 27826999200000,
xm 18 17 [1,5,7] 68334547881600,
xm 18 17 [2,3,8] 44860495680000,
xm 18 17 [1,4,8] 85906941120000,
xm 18 17 [2,2,9] 42890681433600,
xm 18 17 [1,3,9] 124803767088000,
xm 18 17 [1,2,10] 213200738150400,
xm 18 17 [1,1,11] 238761361238400,
xp 18 17 [7,8] 195142953829824000,
xp 18 17 [6,9] 202567642448371200,
xp 18 17 [5,10] 219179409793344000,
xp 18 17 [4,11] 249623536581619200,
xp 18 17 [3,12] 305203896309312000,
xp 18 17 [2,13] 417115846667520000,
xp 18 17 [1,14] 701194097507904000,
xp 18 18 [2,3,3,3] 5405400000,
xp 18 18 [2,2,3,4] 18162144000,
xp 18 18 [1,3,3,4] 22702680000,
xp 18 18 [1,2,4,4] 25427001600,
xp 18 18 [2,2,2,5] 7264857600,
xp 18 18 [1,2,3,5] 54486432000,
xp 18 18 [1,1,4,5] 38140502400,
xp 18 18 [1,2,2,6] 34248614400,
xp 18 18 [1,1,3,6] 42810768000,
xp 18 18 [1,1,2,7] 55653998400,
xp 18 18 [1,1,1,8] 30918888000,
xp 18 18 [4,4,5] 237318681600,
xp 18 18 [3,5,5] 450751392000,
xp 18 18 [3,4,6] 1242290649600,
xp 18 18 [2,5,6] 2637143308800,
xp 18 18 [1,6,6] 3912245568000,
xp 18 18 [3,3,7] 1246794120000,
xp 18 18 [2,4,7] 3502491632640,
xp 18 18 [1,5,7] 8487948268800,
xp 18 18 [2,3,8] 5734048320000,
xp 18 18 [1,4,8] 10761675724800,
xp 18 18 [2,2,9] 5550558773760,
xp 18 18 [1,3,9] 15799508524800,
xp 18 18 [1,2,10] 27264664627200,
xp 18 18 [1,1,11] 30309591312000,
xm 18 18 [7,8] 26103951409536000,
xm 18 18 [6,9] 27100603212883200,
xm 18 18 [5,10] 29330689285497600,
xm 18 18 [4,11] 33418377651859200,
xm 18 18 [3,12] 40882750036128000,
xm 18 18 [2,13] 55994525627040000,
xm 18 18 [1,14] 94891927594464000]
/-- row 3 -/
def extC3 : PL := extC3_0 ++ extC3_1 ++ extC3_2 ++ extC3_3 ++ extC3_4
def extC4_0 : PL := [
xp 7 7 [2,2] 2957834880,
xp 7 7 [1,3] 8302694400,
xm 7 7 [6] 719220902400,
xp 8 7 [1,1,1] 302702400,
xm 8 7 [2,3] 54486432000,
xm 8 7 [1,4] 76281004800,
xp 8 7 [7] 9349871731200,
xm 9 7 [1,1,2] 2508105600,
xp 9 7 [3,3] 123762038400,
xp 9 7 [2,4] 281253772800,
xp 9 7 [1,5] 395934739200,
xm 9 7 [8] 65449102118400,
xp 10 7 [1,2,2] 5318913600,
xp 10 7 [1,1,3] 5881075200,
xm 10 7 [3,4] 893577484800,
xm 10 7 [2,5] 1067934067200,
xm 10 7 [1,6] 1514722809600,
xp 10 7 [9] 327245510592000,
xp 11 7 [1,1,1,1] 5405400,
xm 11 7 [2,2,2] 3113510400,
xm 11 7 [1,2,3] 21016195200,
xm 11 7 [1,1,4] 12194582400,
xp 11 7 [4,4] 1264863600000,
xp 11 7 [3,5] 2718094579200,
xp 11 7 [2,6] 3323672352000,
xp 11 7 [1,7] 4740319584000,
xm 11 7 [10] 1308982042368000,
xm 12 7 [1,1,1,2] 21621600,
xp 12 7 [2,2,3] 16345929600,
xp 12 7 [1,3,3] 18421603200,
xp 12 7 [1,2,4] 38486448000,
xp 12 7 [1,1,5] 23005382400,
xm 12 7 [4,5] 6483885408000,
xm 12 7 [3,6] 7246695456000,
xm 12 7 [2,7] 8972825621760,
xm 12 7 [1,8] 12826106092800,
xp 12 7 [11] 4450538944051200,
xp 13 7 [1,1,2,2] 32432400,
xp 13 7 [1,1,1,3] 21621600,
xm 13 7 [2,3,3] 26075649600,
xm 13 7 [2,2,4] 27502675200,
xm 13 7 [1,3,4] 61578316800,
xm 13 7 [1,2,5] 66162096000,
xm 13 7 [1,1,6] 40259419200,
xp 13 7 [5,5] 7273938672000,
xp 13 7 [4,6] 15241671244800,
xp 13 7 [3,7] 17417496096000,
xp 13 7 [2,8] 21740086368000,
xp 13 7 [1,9] 31046368953600,
xm 13 7 [12] 13351616832153600,
xm 14 7 [1,2,2,2] 21621600,
xm 14 7 [1,1,2,3] 64864800,
xm 14 7 [1,1,1,4] 21621600,
xp 14 7 [3,3,3] 12843230400,
xp 14 7 [2,3,4] 81729648000,
xp 14 7 [1,4,4] 47999952000,
xp 14 7 [2,2,5] 44367523200,
xp 14 7 [1,3,5] 98335036800,
xp 14 7 [1,2,6] 107935027200,
xp 14 7 [1,1,7] 66291825600,
xm 14 7 [5,6] 30817525939200,
xm 14 7 [4,7] 33258518092800,
xm 14 7 [3,8] 38515680403200,
xm 14 7 [2,9] 48341919225600,
xm 14 7 [1,10] 68788342022400,
xp 14 7 [13] 36240102830131200,
xp 15 7 [2,2,2,2] 5405400,
xp 15 7 [1,2,2,3] 64864800,
xp 15 7 [1,1,3,3] 32432400,
xp 15 7 [1,1,2,4] 64864800,
xp 15 7 [1,1,1,5] 21621600,
xm 15 7 [3,3,4] 56951294400,
xm 15 7 [2,4,4] 60497236800,
xm 15 7 [2,3,5] 124540416000,
xm 15 7 [1,4,5] 144864720000,
xm 15 7 [2,2,6] 68886417600,
xm 15 7 [1,3,6] 151005254400,
xm 15 7 [1,2,7] 168475507200,
xm 15 7 [1,1,8] 103826923200,
xp 15 7 [6,6] 29956640313600,
xp 15 7 [5,7] 61911116467200,
xp 15 7 [4,8] 68093510284800,
xp 15 7 [3,9] 79539293433600,
xp 15 7 [2,10] 100211445734400,
xp 15 7 [1,11] 141806387923200,
xm 15 7 [14] 90600257075328000,
xm 16 7 [2,2,2,3] 21621600,
xm 16 7 [1,2,3,3] 64864800,
xm 16 7 [1,2,2,4] 64864800,
xm 16 7 [1,1,3,4] 64864800,
xm 16 7 [1,1,2,5] 64864800,
xm 16 7 [1,1,1,6] 21621600,
xp 16 7 [3,4,4] 80216136000,
xp 16 7 [3,3,5] 82897214400,
xp 16 7 [2,4,5] 175913337600,
xp 16 7 [1,5,5] 104432328000,
xp 16 7 [2,3,6] 184475491200,
xp 16 7 [1,4,6] 212064652800,
xp 16 7 [2,2,7] 103394491200,
xp 16 7 [1,3,7] 224259235200,
xp 16 7 [1,2,8] 253232179200,
xp 16 7 [1,1,9] 155978222400,
xm 16 7 [6,7] 112133077056000,
xm 16 7 [5,8] 118540681459200,
xm 16 7 [4,9] 132007651776000,
xm 16 7 [3,10] 155123390822400,
xm 16 7 [2,11] 195902074368000,
xm 16 7 [1,12] 275301778752000,
xp 16 7 [15] 211400599842432000,
xp 17 7 [2,2,3,3] 32432400,
xp 17 7 [1,3,3,3] 21621600,
xp 17 7 [2,2,2,4] 21621600,
xp 17 7 [1,2,3,4] 129729600,
xp 17 7 [1,1,4,4] 32432400,
xp 17 7 [1,2,2,5] 64864800,
xp 17 7 [1,1,3,5] 64864800,
xp 17 7 [1,1,2,6] 64864800,
xp 17 7 [1,1,1,7] 21621600,
xm 17 7 [4,4,4] 36108072000,
xm 17 7 [3,4,5] 224432208000,
xm 17 7 [2,5,5] 122983660800,
xm 17 7 [3,3,6] 118313395200,
xm 17 7 [2,4,6] 250378128000,
xm 17 7 [1,5,6] 294226732800,
xm 17 7 [2,3,7] 266205139200,
xm 17 7 [1,4,7] 302269968000,
xm 17 7 [2,2,8] 150616065600,
xm 17 7 [1,3,8] 323545622400,
xm 17 7 [1,2,9] 368432064000,
xm 17 7 [1,1,10] 226248422400,
xp 17 7 [7,7] 98775183386880,
xp 17 7 [6,8] 202427992166400,
xp 17 7 [5,9] 217400863680000,
xp 17 7 [4,10] 244153701792000,
xp 17 7 [3,11] 288167841561600,
xp 17 7 [2,12] 364333335125760,
xp 17 7 [1,13] 508009697395200,
xm 18 7 [2,3,3,3] 21621600,
xm 18 7 [2,2,3,4] 64864800,
xm 18 7 [1,3,3,4] 64864800,
xm 18 7 [1,2,4,4] 64864800,
xm 18 7 [2,2,2,5] 21621600,
xm 18 7 [1,2,3,5] 129729600,
xm 18 7 [1,1,4,5] 64864800,
xm 18 7 [1,2,2,6] 64864800,
xm 18 7 [1,1,3,6] 64864800,
xm 18 7 [1,1,2,7] 64864800,
xm 18 7 [1,1,1,8] 21621600,
xp 18 7 [4,4,5] 146378232000,
xp 18 7 [3,5,5] 151783632000,
xp 18 7 [3,4,6] 309794284800,
xp 18 7 [2,5,6] 338594256000,
xp 18 7 [1,6,6] 200691691200,
xp 18 7 [3,3,7] 165534969600,
xp 18 7 [2,4,7] 349059110400,
xp 18 7 [1,5,7] 405621216000,
xp 18 7 [2,3,8] 375178003200,
xp 18 7 [1,4,8] 420929308800,
xp 18 7 [2,2,9] 213664651200,
xp 18 7 [1,3,9] 455091436800,
xp 18 7 [1,2,10] 521080560000,
xp 18 7 [1,1,11] 318529411200,
xm 18 7 [7,8] 338687661312000,
xm 18 7 [6,9] 353333614233600,
xm 18 7 [5,10] 383690859552000,
xm 18 7 [4,11] 433502874604800,
xm 18 7 [3,12] 513332243424000,
xm 18 7 [2,13] 649060540128000,
xm 18 7 [1,14] 897493243046400,
xm 8 8 [1,1,1] 302702400,
xp 8 8 [2,3] 54486432000,
xp 8 8 [1,4] 76281004800,
xm 8 8 [7] 9349871731200,
xp 9 8 [1,1,2] 5318913600,
xm 9 8 [3,3] 272432160000,
xm 9 8 [2,4] 610248038400,
xm 9 8 [1,5] 849988339200,
xp 9 8 [8] 140248075968000,
xm 10 8 [1,2,2] 18551332800,
xm 10 8 [1,1,3] 20367547200,
xp 10 8 [3,4] 3182007628800,
xp 10 8 [2,5] 3748666521600,
xp 10 8 [1,6] 5230697472000,
xm 10 8 [9] 1121984607744000,
xm 11 8 [1,1,1,1] 21621600,
xp 11 8 [2,2,2] 15956740800,
xp 11 8 [1,2,3] 106637731200,
xp 11 8 [1,1,4] 61621560000,
xm 11 8 [4,4] 6483885408000,
xm 11 8 [3,5] 13817759155200,
xm 11 8 [2,6] 16672848192000,
xm 11 8 [1,7] 23374679328000,
xp 11 8 [10] 6357912777216000,
xp 12 8 [1,1,1,2] 129729600,
xm 12 8 [2,2,3] 113253940800,
xm 12 8 [1,3,3] 127394467200,
xm 12 8 [1,2,4] 265945680000,
xm 12 8 [1,1,5] 158918760000,
xp 12 8 [4,5] 44406442080000,
xp 12 8 [3,6] 49092275232000,
xp 12 8 [2,7] 59989561632000,
xp 12 8 [1,8] 84508456032000,
xm 12 8 [11] 28610607497472000,
xm 13 8 [1,1,2,2] 259459200,
xm 13 8 [1,1,1,3] 194594400,
xp 13 8 [2,3,3] 234291657600,
xp 13 8 [2,2,4] 245837592000,
xp 13 8 [1,3,4] 555242688000,
xp 13 8 [1,2,5] 595458864000,
xp 13 8 [1,1,6] 364150987200,
xm 13 8 [5,5] 63858098304000,
xm 13 8 [4,6] 133077661516800,
xm 13 8 [3,7] 150382552320000,
xm 13 8 [2,8] 185199382368000,
xm 13 8 [1,9] 261796408473600,
xp 13 8 [12] 108720308490393600,
xp 14 8 [1,2,2,2] 216216000,
xp 14 8 [1,1,2,3] 713512800,
xp 14 8 [1,1,1,4] 281080800,
xm 14 8 [3,3,3] 145167422400,
xm 14 8 [2,3,4] 918485568000,
xm 14 8 [1,4,4] 546161616000,
xm 14 8 [2,2,5] 496215720000,
xm 14 8 [1,3,5] 1119566448000,
xm 14 8 [1,2,6] 1224906883200,
xm 14 8 [1,1,7] 760993833600,
xp 14 8 [5,6] 334851816499200,
xp 14 8 [4,7] 358477133414400,
xp 14 8 [3,8] 410609751552000,
xp 14 8 [2,9] 508489177996800,
xp 14 8 [1,10] 719940123302400,
xm 14 8 [13] 362401028301312000,
xm 15 8 [2,2,2,2] 64864800,
xm 15 8 [1,2,2,3] 843242400,
xm 15 8 [1,1,3,3] 454053600,
xm 15 8 [1,1,2,4] 972972000,
xm 15 8 [1,1,1,5] 389188800,
xp 15 8 [3,3,4] 785512728000,
xp 15 8 [2,4,4] 831566736000,
xp 15 8 [2,3,5] 1708538832000,
xp 15 8 [1,4,5] 2030268240000,
xp 15 8 [2,2,6] 942226084800,
xp 15 8 [1,3,6] 2116408694400,
xp 15 8 [1,2,7] 2352776025600,
xp 15 8 [1,1,8] 1476582307200,
xm 15 8 [6,6] 394263821952000,
xm 15 8 [5,7] 811673480217600,
xm 15 8 [4,8] 884772477388800,
xm 15 8 [3,9] 1022372512761600,
xm 15 8 [2,10] 1271582555443200,
xm 15 8 [1,11] 1799850308256000,
xp 15 8 [14] 1087203084903936000,
xp 16 8 [2,2,2,3] 324324000,
xp 16 8 [1,2,3,3] 1037836800,
xp 16 8 [1,2,2,4] 1102701600,
xp 16 8 [1,1,3,4] 1167566400,
xp 16 8 [1,1,2,5] 1297296000,
xp 16 8 [1,1,1,6] 518918400,
xm 16 8 [3,4,4] 1326485160000,
xm 16 8 [3,3,5] 1366052688000,
xm 16 8 [2,4,5] 2899456560000,
xm 16 8 [1,5,5] 1766268504000,
xm 16 8 [2,3,6] 3033337507200,
xm 16 8 [1,4,6] 3589618032000,
xm 16 8 [2,2,7] 1698679382400,
xm 16 8 [1,3,7] 3790958371200,
xm 16 8 [1,2,8] 4269660595200,
xm 16 8 [1,1,9] 2695132440000,
xp 16 8 [6,7] 1750649060160000,
xp 16 8 [5,8] 1839440149747200,
xp 16 8 [4,9] 2029837537728000,
xp 16 8 [3,10] 2359763780774400,
xp 16 8 [2,11] 2945209595328000,
xp 16 8 [1,12] 4160692920384000,
xm 16 8 [15] 2989808483485824000,
xm 17 8 [2,2,3,3] 583783200,
xm 17 8 [1,3,3,3] 410810400,
xm 17 8 [2,2,2,4] 410810400,
xm 17 8 [1,2,3,4] 2594592000,
xm 17 8 [1,1,4,4] 713512800,
xm 17 8 [1,2,2,5] 1427025600,
xm 17 8 [1,1,3,5] 1491890400,
xm 17 8 [1,1,2,6] 1686484800,
xm 17 8 [1,1,1,7] 670269600,
xp 17 8 [4,4,4] 705512808000,
xp 17 8 [3,4,5] 4369292928000,
xp 17 8 [2,5,5] 2395457064000,
xp 17 8 [3,3,6] 2293878787200,
xp 17 8 [2,4,6] 4873941072000,
xp 17 8 [1,5,6] 5911777872000,
xp 17 8 [2,3,7] 5169205641600,
xp 17 8 [1,4,7] 6077831760000,
xp 17 8 [2,2,8] 2929034908800,
xp 17 8 [1,3,8] 6488296214400,
xp 17 8 [1,2,9] 7385506128000,
xp 17 8 [1,1,10] 4673508840000,
xm 17 8 [7,7] 1804917546432000,
xm 17 8 [6,8] 3688295554944000,
xm 17 8 [5,9] 3932830661760000,
xm 17 8 [4,10] 4377058541856000,
xm 17 8 [3,11] 5111263213056000,
xm 17 8 [2,12] 6396870576096000,
xm 17 8 [1,13] 9007043101056000,
xp 18 8 [2,3,3,3] 454053600,
xp 18 8 [2,2,3,4] 1427025600,
xp 18 8 [1,3,3,4] 1491890400,
xp 18 8 [1,2,4,4] 1556755200,
xp 18 8 [2,2,2,5] 518918400,
xp 18 8 [1,2,3,5] 3243240000,
xp 18 8 [1,1,4,5] 1751349600,
xp 18 8 [1,2,2,6] 1816214400,
xp 18 8 [1,1,3,6] 1881079200,
xp 18 8 [1,1,2,7] 2140538400,
xp 18 8 [1,1,1,8] 843242400,
xm 18 8 [4,4,5] 3324969648000,
xm 18 8 [3,5,5] 3438483048000,
xm 18 8 [3,4,6] 7005398400000,
xm 18 8 [2,5,6] 7694262576000,
xm 18 8 [1,6,6] 4723065547200,
xm 18 8 [3,3,7] 3730504377600,
xm 18 8 [2,4,7] 7925181264000,
xm 18 8 [1,5,7] 9553287744000,
xm 18 8 [2,3,8] 8497548259200,
xm 18 8 [1,4,8] 9912638736000,
xm 18 8 [2,2,9] 4859022168000,
xm 18 8 [1,3,9] 10680637968000,
xm 18 8 [1,2,10] 12260744496000,
xm 18 8 [1,1,11] 7758738187200,
xp 18 8 [7,8] 7142517398016000,
xp 18 8 [6,9] 7416082875801600,
xp 18 8 [5,10] 7992505737216000,
xp 18 8 [4,11] 8949745169164800,
xp 18 8 [3,12] 10487439458496000,
xp 18 8 [2,13] 13152152901888000,
xp 18 8 [1,14] 18437947053926400,
xm 9 9 [1,1,2] 2802159360,
xp 9 9 [3,3] 157899456000,
xp 9 9 [2,4] 342486144000,
xp 9 9 [1,5] 476367091200,
xm 9 9 [8] 80141757696000,
xp 10 9 [1,2,2] 21249708480,
xp 10 9 [1,1,3] 23870246400,
xm 10 9 [3,4] 3923023104000,
xm 10 9 [2,5] 4511476569600,
xm 10 9 [1,6] 6318869356800,
xp 10 9 [9] 1362409880832000,
xp 11 9 [1,1,1,1] 21621600,
xm 11 9 [2,2,2] 29656186560,
xm 11 9 [1,2,3] 201496014720,
xm 11 9 [1,1,4] 120129609600,
xp 11 9 [4,4] 12874365504000,
xp 11 9 [3,5] 27112448563200,
xp 11 9 [2,6] 32210821843200,
xp 11 9 [1,7] 45465035616000,
xm 11 9 [10] 12261688927488000,
xm 12 9 [1,1,1,2] 237837600,
xp 12 9 [2,2,3] 305357532480,
xp 12 9 [1,3,3] 348064516800,
xp 12 9 [1,2,4] 735566832000,
xp 12 9 [1,1,5] 455869814400,
xm 12 9 [4,5] 124882902144000,
xm 12 9 [3,6] 136105550380800,
xm 12 9 [2,7] 164855705414400,
xm 12 9 [1,8] 234414641260800,
xp 12 9 [11] 77657363207424000,
xp 13 9 [1,1,2,2] 670269600,
xp 13 9 [1,1,1,3] 627026400,
xm 13 9 [2,3,3] 849287799360,
xm 13 9 [2,2,4] 900089910720,
xm 13 9 [1,3,4] 2059846588800,
xm 13 9 [1,2,5] 2250808560000,
xm 13 9 [1,1,6] 1432993161600,
xp 13 9 [5,5] 238821815232000,
xp 13 9 [4,6] 494321148921600,
xp 13 9 [3,7] 551535016032000,
xp 13 9 [2,8] 676427258707200,
xp 13 9 [1,9] 967711724179200,
xm 13 9 [12] 388286816037120000,
xm 14 9 [1,1,1,1,1] 540540,
xm 14 9 [1,2,2,2] 713512800,
xm 14 9 [1,1,2,3] 2767564800,
xm 14 9 [1,1,1,4] 1448647200,
xp 14 9 [3,3,3] 674464190400,
xp 14 9 [2,3,4] 4300536240000,
xp 14 9 [1,4,4] 2616256843200,
xp 14 9 [2,2,5] 2359807369920,
xp 14 9 [1,3,5] 5403756758400,
xp 14 9 [1,2,6] 6045814494720,
xp 14 9 [1,1,7] 3921933375360,
xm 14 9 [5,6] 1587624098860800,
xm 14 9 [4,7] 1683457948972800,
xm 14 9 [3,8] 1909171885420800,
xm 14 9 [2,9] 2362178308089600,
xm 14 9 [1,10] 3394003438425600,
xp 14 9 [13] 1630804627355904000,
xp 15 9 [1,1,1,1,2] 2702700,
xp 15 9 [2,2,2,2] 259459200,
xp 15 9 [1,2,2,3] 3827023200,
xp 15 9 [1,1,3,3] 2291889600,
xp 15 9 [1,1,2,4] 5578372800]
def extC4_1 : PL := [
xp 15 9 [1,1,1,5] 2962159200,
xm 15 9 [3,3,4] 4551822475200,
xm 15 9 [2,4,4] 4848903259200,
xm 15 9 [2,3,5] 10029395376000,
xm 15 9 [1,4,5] 12203663472000,
xm 15 9 [2,2,6] 5637244092480,
xm 15 9 [1,3,6] 12879554688000,
xm 15 9 [1,2,7] 14672106408960,
xm 15 9 [1,1,8] 9638649820800,
xp 15 9 [6,6] 2304089544556800,
xp 15 9 [5,7] 4722100877894400,
xp 15 9 [4,8] 5096758924857600,
xp 15 9 [3,9] 5847625546963200,
xp 15 9 [2,10] 7283550078604800,
xp 15 9 [1,11] 10490556082406400,
xm 15 9 [14] 5979616966971648000,
xm 16 9 [1,1,1,2,2] 5405400,
xm 16 9 [1,1,1,1,3] 2702700,
xm 16 9 [2,2,2,3] 1686484800,
xm 16 9 [1,2,3,3] 5902696800,
xm 16 9 [1,2,2,4] 6983776800,
xm 16 9 [1,1,3,4] 7913505600,
xm 16 9 [1,1,2,5] 10551340800,
xm 16 9 [1,1,1,6] 5491886400,
xp 16 9 [3,4,4] 9329763643200,
xp 16 9 [3,3,5] 9661611960000,
xp 16 9 [2,4,5] 20623114512000,
xp 16 9 [1,5,5] 12957781636800,
xp 16 9 [2,3,6] 21811852782720,
xp 16 9 [1,4,6] 26469508665600,
xp 16 9 [2,2,7] 12480739951680,
xp 16 9 [1,3,7] 28387846206720,
xp 16 9 [1,2,8] 32806436382720,
xp 16 9 [1,1,9] 21722183683200,
xm 16 9 [6,7] 12290373698803200,
xm 16 9 [5,8] 12824983672300800,
xm 16 9 [4,9] 14026605649056000,
xm 16 9 [3,10] 16230995697945600,
xm 16 9 [2,11] 20323949751705600,
xm 16 9 [1,12] 29291812437888000,
xp 16 9 [15] 19647312891478272000,
xp 17 9 [1,1,2,2,2] 5405400,
xp 17 9 [1,1,1,2,3] 10810800,
xp 17 9 [1,1,1,1,4] 2702700,
xp 17 9 [2,2,3,3] 3697293600,
xp 17 9 [1,3,3,3] 2789186400,
xp 17 9 [2,2,2,4] 2854051200,
xp 17 9 [1,2,3,4] 19156737600,
xp 17 9 [1,1,4,4] 5967561600,
xp 17 9 [1,2,2,5] 12389176800,
xp 17 9 [1,1,3,5] 13535121600,
xp 17 9 [1,1,2,6] 18659440800,
xp 17 9 [1,1,1,7] 9427017600,
xm 17 9 [4,4,4] 5900750856000,
xm 17 9 [3,4,5] 36709584912000,
xm 17 9 [2,5,5] 20335503988800,
xm 17 9 [3,3,6] 19452823790400,
xm 17 9 [2,4,6] 41571850320000,
xm 17 9 [1,5,6] 52049072275200,
xm 17 9 [2,3,7] 44695427736960,
xm 17 9 [1,4,7] 53977891968000,
xm 17 9 [2,2,8] 25929548124480,
xm 17 9 [1,3,8] 58627919750400,
xm 17 9 [1,2,9] 68543931456000,
xm 17 9 [1,1,10] 45576343612800,
xp 17 9 [7,7] 14978004135494400,
xp 17 9 [6,8] 30508117729689600,
xp 17 9 [5,9] 32279778314784000,
xp 17 9 [4,10] 35658972340992000,
xp 17 9 [3,11] 41532130229990400,
xp 17 9 [2,12] 52228383490483200,
xp 17 9 [1,13] 75205025421926400,
xm 18 9 [1,2,2,2,2] 2702700,
xm 18 9 [1,1,2,2,3] 16216200,
xm 18 9 [1,1,1,3,3] 5405400,
xm 18 9 [1,1,1,2,4] 10810800,
xm 18 9 [1,1,1,1,5] 2702700,
xm 18 9 [2,3,3,3] 3372969600,
xm 18 9 [2,2,3,4] 11416204800,
xm 18 9 [1,3,3,4] 12562149600,
xm 18 9 [1,2,4,4] 13945932000,
xm 18 9 [2,2,2,5] 4799995200,
xm 18 9 [1,2,3,5] 31264833600,
xm 18 9 [1,1,4,5] 18421603200,
xm 18 9 [1,2,2,6] 21016195200,
xm 18 9 [1,1,3,6] 22421599200,
xm 18 9 [1,1,2,7] 31070239200,
xm 18 9 [1,1,1,8] 15221606400,
xp 18 9 [4,4,5] 32660075448000,
xp 18 9 [3,5,5] 33902625556800,
xp 18 9 [3,4,6] 69358892803200,
xp 18 9 [2,5,6] 76962085200000,
xp 18 9 [1,6,6] 49015994227200,
xp 18 9 [3,3,7] 37375953975360,
xp 18 9 [2,4,7] 79907777389440,
xp 18 9 [1,5,7] 99510386976000,
xp 18 9 [2,3,8] 87016544334720,
xp 18 9 [1,4,8] 104414684774400,
xp 18 9 [2,2,9] 51029423565120,
xp 18 9 [1,3,9] 114597939456000,
xp 18 9 [1,2,10] 135239216112000,
xp 18 9 [1,1,11] 90048169411200,
xm 18 9 [7,8] 68925610468915200,
xm 18 9 [6,9] 71193005736652800,
xm 18 9 [5,10] 76143916937088000,
xm 18 9 [4,11] 84765046651084800,
xm 18 9 [3,12] 99233305307136000,
xm 18 9 [2,13] 125220605936025600,
xm 18 9 [1,14] 179906224763865600,
xm 10 10 [1,2,2] 8017289280,
xm 10 10 [1,1,3] 9383774400,
xp 10 10 [3,4] 1634592960000,
xp 10 10 [2,5] 1830744115200,
xp 10 10 [1,6] 2602894694400,
xm 10 10 [9] 567670783680000,
xp 11 10 [2,2,2] 24051867840,
xp 11 10 [1,2,3] 167610643200,
xp 11 10 [1,1,4] 104432328000,
xm 11 10 [4,4] 11442150720000,
xm 11 10 [3,5] 23865057216000,
xm 11 10 [2,6] 27946869350400,
xm 11 10 [1,7] 40070878848000,
xp 11 10 [10] 10785744889920000,
xp 12 10 [1,1,1,2] 129729600,
xm 12 10 [2,2,3] 404211487680,
xm 12 10 [1,3,3] 468713044800,
xm 12 10 [1,2,4] 1007566560000,
xm 12 10 [1,1,5] 652323672000,
xp 12 10 [4,5] 176209121088000,
xp 12 10 [3,6] 189864977702400,
xp 12 10 [2,7] 228575252505600,
xp 12 10 [1,8] 330362134502400,
xm 12 10 [11] 107857448899200000,
xm 13 10 [1,1,2,2] 648648000,
xm 13 10 [1,1,1,3] 864864000,
xp 13 10 [2,3,3] 1606960555200,
xp 13 10 [2,2,4] 1727090164800,
xp 13 10 [1,3,4] 4006482480000,
xp 13 10 [1,2,5] 4486049568000,
xp 13 10 [1,1,6] 2981315937600,
xm 13 10 [5,5] 475993469952000,
xm 13 10 [4,6] 980304316992000,
xm 13 10 [3,7] 1083112430400000,
xm 13 10 [2,8] 1327681785830400,
xm 13 10 [1,9] 1932306824448000,
xp 13 10 [12] 755002142294400000,
xp 14 10 [1,1,1,1,1] 2702700,
xp 14 10 [1,2,2,2] 908107200,
xp 14 10 [1,1,2,3] 4929724800,
xp 14 10 [1,1,1,4] 3459456000,
xm 14 10 [3,3,3] 1696084790400,
xm 14 10 [2,3,4] 10934907984000,
xm 14 10 [1,4,4] 6813009403200,
xm 14 10 [2,2,5] 6127388467200,
xm 14 10 [1,3,5] 14211877680000,
xm 14 10 [1,2,6] 16340480956800,
xm 14 10 [1,1,7] 11060745696000,
xp 14 10 [5,6] 4167371400192000,
xp 14 10 [4,7] 4388265622540800,
xp 14 10 [3,8] 4941766820390400,
xp 14 10 [2,9] 6133515855667200,
xp 14 10 [1,10] 8975876861952000,
xm 14 10 [13] 4152511782619200000,
xm 15 10 [1,1,1,1,2] 18918900,
xm 15 10 [2,2,2,2] 389188800,
xm 15 10 [1,2,2,3] 7783776000,
xm 15 10 [1,1,3,3] 5837832000,
xm 15 10 [1,1,2,4] 15827011200,
xm 15 10 [1,1,1,5] 10594584000,
xp 15 10 [3,3,4] 14655552912000,
xp 15 10 [2,4,4] 15748870737600,
xp 15 10 [2,3,5] 32863102272000,
xp 15 10 [1,4,5] 40886013168000,
xp 15 10 [2,2,6] 18925317290880,
xp 15 10 [1,3,6] 43825253472000,
xp 15 10 [1,2,7] 51348740002560,
xp 15 10 [1,1,8] 35201867500800,
xm 15 10 [6,6] 7643095146086400,
xm 15 10 [5,7] 15614690547456000,
xm 15 10 [4,8] 16735071697344000,
xm 15 10 [3,9] 19120487690304000,
xm 15 10 [2,10] 23948138127513600,
xm 15 10 [1,11] 35180450700595200,
xp 15 10 [14] 19101554200048320000,
xp 16 10 [1,1,1,2,2] 48648600,
xp 16 10 [1,1,1,1,3] 27027000,
xp 16 10 [2,2,2,3] 3718915200,
xp 16 10 [1,2,3,3] 15956740800,
xp 16 10 [1,2,2,4] 21794572800,
xp 16 10 [1,1,3,4] 28540512000,
xp 16 10 [1,1,2,5] 43070227200,
xp 16 10 [1,1,1,6] 27243216000,
xm 16 10 [3,4,4] 37115898019200,
xm 16 10 [3,3,5] 38728177488000,
xm 16 10 [2,4,5] 83257862688000,
xm 16 10 [1,5,5] 53877092068800,
xm 16 10 [2,3,6] 89307153936000,
xm 16 10 [1,4,6] 110776970304000,
xm 16 10 [2,2,7] 52435562699520,
xm 16 10 [1,3,7] 121034949235200,
xm 16 10 [1,2,8] 143855077766400,
xm 16 10 [1,1,9] 99442278936000,
xp 16 10 [6,7] 49887515604326400,
xp 16 10 [5,8] 51808750785792000,
xp 16 10 [4,9] 56316195359424000,
xp 16 10 [3,10] 65059524129600000,
xp 16 10 [2,11] 82054474313011200,
xp 16 10 [1,12] 120800342767104000,
xm 16 10 [15] 76406216800193280000,
xm 17 10 [1,1,2,2,2] 59459400,
xm 17 10 [1,1,1,2,3] 129729600,
xm 17 10 [1,1,1,1,4] 37837800,
xm 17 10 [2,2,3,3] 10378368000,
xm 17 10 [1,3,3,3] 9081072000,
xm 17 10 [2,2,2,4] 9427017600,
xm 17 10 [1,2,3,4] 71870198400,
xm 17 10 [1,1,4,4] 27891864000,
xm 17 10 [1,2,2,5] 54875620800,
xm 17 10 [1,1,3,5] 66162096000,
xm 17 10 [1,1,2,6] 102875572800,
xm 17 10 [1,1,1,7] 61751289600,
xp 17 10 [4,4,4] 28264187952000,
xp 17 10 [3,4,5] 176961552768000,
xp 17 10 [2,5,5] 99271554782400,
xp 17 10 [3,3,6] 94945721270400,
xp 17 10 [2,4,6] 204169741776000,
xp 17 10 [1,5,6] 263078655840000,
xp 17 10 [2,3,7] 223306362639360,
xp 17 10 [1,4,7] 275773994496000,
xp 17 10 [2,2,8] 133017570766080,
xp 17 10 [1,3,8] 305625294374400,
xp 17 10 [1,2,9] 367359200208000,
xp 17 10 [1,1,10] 255173582664000,
xm 17 10 [7,7] 72816801042585600,
xm 17 10 [6,8] 147991413694924800,
xm 17 10 [5,9] 155754478623744000,
xm 17 10 [4,10] 171242900756928000,
xm 17 10 [3,11] 199535612615539200,
xm 17 10 [2,12] 253044928533196800,
xm 17 10 [1,13] 372755343395635200,
xp 18 10 [1,2,2,2,2] 35135100,
xp 18 10 [1,1,2,2,3] 227026800,
xp 18 10 [1,1,1,3,3] 81081000,
xp 18 10 [1,1,1,2,4] 172972800,
xp 18 10 [1,1,1,1,5] 51351300,
xp 18 10 [2,3,3,3] 11156745600,
xp 18 10 [2,2,3,4] 43848604800,
xp 18 10 [1,3,3,4] 53189136000,
xp 18 10 [1,2,4,4] 66291825600,
xp 18 10 [2,2,2,5] 22399977600,
xp 18 10 [1,2,3,5] 158789030400,
xp 18 10 [1,1,4,5] 110270160000,
xp 18 10 [1,2,2,6] 124540416000,
xp 18 10 [1,1,3,6] 142702560000,
xp 18 10 [1,1,2,7] 221837616000,
xp 18 10 [1,1,1,8] 127135008000,
xm 18 10 [4,4,5] 185691057552000,
xm 18 10 [3,5,5] 193789168372800,
xm 18 10 [3,4,6] 398617547328000,
xm 18 10 [2,5,6] 447306363504000,
xm 18 10 [1,6,6] 294722559331200,
xm 18 10 [3,3,7] 218143176451200,
xm 18 10 [2,4,7] 469123336281600,
xm 18 10 [1,5,7] 601109452944000,
xm 18 10 [2,3,8] 520560257817600,
xm 18 10 [1,4,8] 639259036416000,
xm 18 10 [2,2,9] 313542951321600,
xm 18 10 [1,3,9] 716340905280000,
xm 18 10 [1,2,10] 868830266304000,
xm 18 10 [1,1,11] 604754897947200,
xp 18 10 [7,8] 393817830268262400,
xp 18 10 [6,9] 405340571091456000,
xp 18 10 [5,10] 431311980363264000,
xp 18 10 [4,11] 478588767681024000,
xp 18 10 [3,12] 561459797458560000,
xp 18 10 [2,13] 715174360111411200,
xp 18 10 [1,14] 1052688701256192000,
xm 11 11 [1,1,1,1] 5405400,
xm 11 11 [2,2,2] 7257444480,
xm 11 11 [1,2,3] 51669446400,
xm 11 11 [1,1,4] 33772939200,
xp 11 11 [4,4] 3798915120000,
xp 11 11 [3,5] 7884965088000,
xp 11 11 [2,6] 9110131430400,
xp 11 11 [1,7] 13282754284800,
xm 11 11 [10] 3595248296640000,
xp 12 11 [1,1,1,2] 43243200,
xp 12 11 [2,2,3] 263870006400,
xp 12 11 [1,3,3] 311165712000,
xp 12 11 [1,2,4] 679783104000,
xp 12 11 [1,1,5] 458853595200,
xm 12 11 [4,5] 123575227776000,
xm 12 11 [3,6] 132285273120000,
xm 12 11 [2,7] 158279971449600,
xm 12 11 [1,8] 232633713312000,
xp 12 11 [11] 75500214229440000,
xp 13 11 [1,1,2,2] 15135120,
xp 13 11 [1,1,1,3] 432432000,
xm 13 11 [2,3,3] 1682185190400,
xm 13 11 [2,2,4] 1831059172800,
xm 13 11 [1,3,4] 4305503030400,
xm 13 11 [1,2,5] 4929205881600,
xm 13 11 [1,1,6] 3403456056000,
xp 13 11 [5,5] 528491147184000,
xp 13 11 [4,6] 1085696644032000,
xp 13 11 [3,7] 1192262764492800,
xp 13 11 [2,8] 1460138302022400,
xp 13 11 [1,9] 2161601297856000,
xm 13 11 [12] 830502356523840000,
xm 14 11 [1,1,1,1,1] 5405400,
xm 14 11 [1,2,2,2] 51891840,
xm 14 11 [1,1,2,3] 3697293600,
xm 14 11 [1,1,1,4] 4043239200,
xp 14 11 [3,3,3] 2510082432000,
xp 14 11 [2,3,4] 16351118784000,
xp 14 11 [1,4,4] 10420746336000,
xp 14 11 [2,2,5] 9341698766400,
xp 14 11 [1,3,5] 21927415910400,
xp 14 11 [1,2,6] 25829682278400,
xp 14 11 [1,1,7] 18133214299200,
xm 14 11 [5,6] 6486882161760000,
xm 14 11 [4,7] 6805799032032000,
xm 14 11 [3,8] 7629050100672000,
xm 14 11 [2,9] 9494572127040000,
xm 14 11 [1,10] 14141309966784000,
xp 14 11 [13] 6367184733349440000,
xp 15 11 [1,1,1,1,2] 54054000,
xm 15 11 [2,2,2,2] 87567480,
xp 15 11 [1,2,2,3] 5889723840,
xp 15 11 [1,1,3,3] 7762154400,
xp 15 11 [1,1,2,4] 23610787200,
xp 15 11 [1,1,1,5] 19956736800,
xm 15 11 [3,3,4] 28834331011200,
xm 15 11 [2,4,4] 31253343264000,
xm 15 11 [2,3,5] 65731430793600,
xm 15 11 [1,4,5] 83489300294400,
xm 15 11 [2,2,6] 38709885614400,
xm 15 11 [1,3,6] 90693963360000,
xm 15 11 [1,2,7] 108904366771200,
xm 15 11 [1,1,8] 77380463160000,
xp 15 11 [6,6] 15616220059440000,
xp 15 11 [5,7] 31854387172608000,
xp 15 11 [4,8] 34007761019232000,
xp 15 11 [3,9] 38749652925984000,
xp 15 11 [2,10] 48786294997440000,
xp 15 11 [1,11] 73002462781248000,
xm 15 11 [14] 38203108400096640000,
xm 16 11 [1,1,1,2,2] 183783600,
xm 16 11 [1,1,1,1,3] 108108000,
xm 16 11 [2,2,2,3] 1673511840,
xm 16 11 [1,2,3,3] 19848628800,
xm 16 11 [1,2,2,4] 35057262240,
xm 16 11 [1,1,3,4] 59091832800,
xm 16 11 [1,1,2,5] 97945848000,
xm 16 11 [1,1,1,6] 73253980800,
xp 16 11 [3,4,4] 92569853376000,
xp 16 11 [3,3,5] 97257057955200,
xp 16 11 [2,4,5] 210612373171200,
xp 16 11 [1,5,5] 140012487014400,
xp 16 11 [2,3,6] 228775295548800,
xp 16 11 [1,4,6] 289469548368000,
xp 16 11 [2,2,7] 137505773845440,
xp 16 11 [1,3,7] 321308824636800,
xp 16 11 [1,2,8] 391256170905600,
xp 16 11 [1,1,9] 280329189940800,
xm 16 11 [6,7] 128059439335027200,
xm 16 11 [5,8] 132671768733504000,
xm 16 11 [4,9] 143711980828416000,
xm 16 11 [3,10] 165883420711008000,
xm 16 11 [2,11] 210666412295539200,
xm 16 11 [1,12] 316238040172454400,
xp 16 11 [15] 191015542000483200000,
xp 17 11 [1,1,2,2,2] 281080800,
xp 17 11 [1,1,1,2,3] 648648000,
xp 17 11 [1,1,1,1,4] 205405200,
xp 17 11 [2,2,3,3] 8523234720,
xp 17 11 [1,3,3,3] 14205391200,
xp 17 11 [2,2,2,4] 13846472640,
xp 17 11 [1,2,3,4] 146724177600,
xp 17 11 [1,1,4,4] 79005326400,
xp 17 11 [1,2,2,5] 136851755040,
xp 17 11 [1,1,3,5] 191697105600,
xp 17 11 [1,1,2,6] 322096975200,
xp 17 11 [1,1,1,7] 222334912800,
xm 17 11 [4,4,4] 86444083440000,
xm 17 11 [3,4,5] 544474908806400,
xm 17 11 [2,5,5] 309243193459200,
xm 17 11 [3,3,6] 295454901456000,
xm 17 11 [2,4,6] 639379338998400,
xm 17 11 [1,5,6] 845615154384000,
xm 17 11 [2,3,7] 710056803456000,
xm 17 11 [1,4,7] 894399538032000,
xm 17 11 [2,2,8] 433060885857600,
xm 17 11 [1,3,8] 1008213045840000,
xm 17 11 [1,2,9] 1240964294169600,
xm 17 11 [1,1,10] 893821765636800,
xp 17 11 [7,7] 228005392664649600,
xp 17 11 [6,8] 462903587258112000,
xp 17 11 [5,9] 485846648423136000,
xp 17 11 [4,10] 532704489565248000]
def extC4_2 : PL := [
xp 17 11 [3,11] 621238870219968000,
xp 17 11 [2,12] 794262253693708800,
xp 17 11 [1,13] 1194341484143808000,
xm 18 11 [1,2,2,2,2] 199999800,
xm 18 11 [1,1,2,2,3] 1362160800,
xm 18 11 [1,1,1,3,3] 513513000,
xm 18 11 [1,1,1,2,4] 1124323200,
xm 18 11 [1,1,1,1,5] 367567200,
xm 18 11 [2,3,3,3] 10702692000,
xm 18 11 [2,2,3,4] 75489654240,
xm 18 11 [1,3,3,4] 122162040000,
xm 18 11 [1,2,4,4] 183956572800,
xm 18 11 [2,2,2,5] 56354538240,
xm 18 11 [1,2,3,5] 470529259200,
xm 18 11 [1,1,4,5] 408972564000,
xm 18 11 [1,2,2,6] 427251464640,
xm 18 11 [1,1,3,6] 542853511200,
xm 18 11 [1,1,2,7] 905434770240,
xm 18 11 [1,1,1,8] 588129141600,
xp 18 11 [4,4,5] 683167749264000,
xp 18 11 [3,5,5] 716702072486400,
xp 18 11 [3,4,6] 1481378410512000,
xp 18 11 [2,5,6] 1680816913776000,
xp 18 11 [1,6,6] 1141876047312000,
xp 18 11 [3,3,7] 822174720681600,
xp 18 11 [2,4,7] 1778291064950400,
xp 18 11 [1,5,7] 2337850116201600,
xp 18 11 [2,3,8] 2006412819840000,
xp 18 11 [1,4,8] 2514000080592000,
xp 18 11 [2,2,9] 1237168202212800,
xp 18 11 [1,3,9] 2866929494457600,
xp 18 11 [1,2,10] 3559025494252800,
xp 18 11 [1,1,11] 2570379916104000,
xm 18 11 [7,8] 1469969897639443200,
xm 18 11 [6,9] 1510374768975072000,
xm 18 11 [5,10] 1602785065321440000,
xm 18 11 [4,11] 1775303555721696000,
xm 18 11 [3,12] 2087446574691878400,
xm 18 11 [2,13] 2683061898816499200,
xm 18 11 [1,14] 4036025737808064000,
xm 12 12 [1,1,1,2] 43243200,
xm 12 12 [2,2,3] 68108040000,
xm 12 12 [1,3,3] 81544320000,
xm 12 12 [1,2,4] 180324144000,
xm 12 12 [1,1,5] 126486360000,
xp 12 12 [4,5] 34326452160000,
xp 12 12 [3,6] 36680266022400,
xp 12 12 [2,7] 43543688348160,
xp 12 12 [1,8] 65003870131200,
xm 12 12 [11] 21140059984243200,
xp 13 12 [1,1,2,2] 337296960,
xp 13 12 [1,1,1,3] 64864800,
xp 13 12 [2,3,3] 925713360000,
xp 13 12 [2,2,4] 1017728712000,
xp 13 12 [1,3,4] 2424646224000,
xp 13 12 [1,2,5] 2823175555200,
xp 13 12 [1,1,6] 2016387172800,
xm 13 12 [5,5] 308938069440000,
xm 13 12 [4,6] 634352835916800,
xm 13 12 [3,7] 694561900032000,
xm 13 12 [2,8] 848166935616000,
xm 13 12 [1,9] 1275367027334400,
xp 13 12 [12] 486221379637593600,
xp 14 12 [1,1,1,1,1] 5405400,
xm 14 12 [1,2,2,2] 959999040,
xm 14 12 [1,1,2,3] 172972800,
xp 14 12 [1,1,1,4] 2075673600,
xm 14 12 [3,3,3] 2191966920000,
xm 14 12 [2,3,4] 14403877488000,
xm 14 12 [1,4,4] 9370369008000,
xm 14 12 [2,2,5] 8355494347200,
xm 14 12 [1,3,5] 19838250432000,
xm 14 12 [1,2,6] 23817576182400,
xm 14 12 [1,1,7] 17252739504000,
xp 14 12 [5,6] 5970056559667200,
xp 14 12 [4,7] 6256605375820800,
xp 14 12 [3,8] 6993704054937600,
xp 14 12 [2,9] 8710741213574400,
xp 14 12 [1,10] 13181315597049600,
xm 14 12 [13] 5834656555651123200,
xm 15 12 [1,1,1,1,2] 81081000,
xp 15 12 [2,2,2,2] 1011890880,
xp 15 12 [1,2,2,3] 3852969120,
xm 15 12 [1,1,3,3] 4237833600,
xm 15 12 [1,1,2,4] 16972956000,
xm 15 12 [1,1,1,5] 20432412000,
xp 15 12 [3,3,4] 35591408424000,
xp 15 12 [2,4,4] 38877366528000,
xp 15 12 [2,3,5] 82252717747200,
xp 15 12 [1,4,5] 106478163792000,
xp 15 12 [2,2,6] 49316837169600,
xp 15 12 [1,3,6] 116780769705600,
xp 15 12 [1,2,7] 143030775888000,
xp 15 12 [1,1,8] 104740824988800,
xm 15 12 [6,6] 20072736165081600,
xm 15 12 [5,7] 40929423113779200,
xm 15 12 [4,8] 43630063353676800,
xm 15 12 [3,9] 49616430037574400,
xm 15 12 [2,10] 62682207933945600,
xm 15 12 [1,11] 95345984826892800,
xp 15 12 [14] 48622137963759360000,
xp 16 12 [1,1,1,2,2] 378378000,
xp 16 12 [1,1,1,1,3] 229729500,
xm 16 12 [2,2,2,3] 8484315840,
xp 16 12 [1,2,3,3] 648648000,
xp 16 12 [1,2,2,4] 22668085440,
xp 16 12 [1,1,3,4] 68540472000,
xp 16 12 [1,1,2,5] 128064736800,
xp 16 12 [1,1,1,6] 114572858400,
xm 16 12 [3,4,4] 150524606232000,
xm 16 12 [3,3,5] 159015871872000,
xm 16 12 [2,4,5] 346737642451200,
xm 16 12 [1,5,5] 236088412560000,
xm 16 12 [2,3,6] 380256138662400,
xm 16 12 [1,4,6] 489941737084800,
xm 16 12 [2,2,7] 232980091344000,
xm 16 12 [1,3,7] 550203990336000,
xm 16 12 [1,2,8] 683422538198400,
xm 16 12 [1,1,9] 504503495496000,
xp 16 12 [6,7] 215057838131136000,
xp 16 12 [5,8] 222644693938867200,
xp 16 12 [4,9] 240787024077600000,
xp 16 12 [3,10] 277715900791929600,
xp 16 12 [2,11] 354567171486528000,
xp 16 12 [1,12] 541444393473984000,
xm 16 12 [15] 316043896764435840000,
xm 17 12 [1,1,2,2,2] 745945200,
xm 17 12 [1,1,1,2,3] 1783782000,
xm 17 12 [1,1,1,1,4] 591891300,
xp 17 12 [2,2,3,3] 26542676160,
xm 17 12 [1,3,3,3] 2724321600,
xp 17 12 [2,2,2,4] 2503781280,
xm 17 12 [1,2,3,4] 139589049600,
xm 17 12 [1,1,4,4] 136605268800,
xm 17 12 [1,2,2,5] 193932779040,
xm 17 12 [1,1,3,5] 339286147200,
xm 17 12 [1,1,2,6] 612518306400,
xm 17 12 [1,1,1,7] 480842762400,
xp 17 12 [4,4,4] 176945336568000,
xp 17 12 [3,4,5] 1120141150128000,
xp 17 12 [2,5,5] 643420156579200,
xp 17 12 [3,3,6] 613324965052800,
xp 17 12 [2,4,6] 1335486578025600,
xp 17 12 [1,5,6] 1807975013644800,
xp 17 12 [2,3,7] 1500680877696000,
xp 17 12 [1,4,7] 1924208583897600,
xp 17 12 [2,2,8] 933368926089600,
xp 17 12 [1,3,8] 2197185608217600,
xp 17 12 [1,2,9] 2758100852707200,
xp 17 12 [1,1,10] 2047232331144000,
xm 17 12 [7,7] 479438694995420160,
xm 17 12 [6,8] 973105161726297600,
xm 17 12 [5,9] 1020361519745568000,
xm 17 12 [4,10] 1117226190880800000,
xm 17 12 [3,11] 1303485653486016000,
xm 17 12 [2,12] 1677657903157716480,
xm 17 12 [1,13] 2568517288085548800,
xp 18 12 [1,2,2,2,2] 654053400,
xp 18 12 [1,1,2,2,3] 4621617000,
xp 18 12 [1,1,1,3,3] 1810809000,
xp 18 12 [1,1,1,2,4] 4010806800,
xp 18 12 [1,1,1,1,5] 1389187800,
xm 18 12 [2,3,3,3] 43005362400,
xm 18 12 [2,2,3,4] 22910247360,
xp 18 12 [1,3,3,4] 123394471200,
xp 18 12 [1,2,4,4] 289772683200,
xp 18 12 [2,2,2,5] 66512365920,
xp 18 12 [1,2,3,5] 822096475200,
xp 18 12 [1,1,4,5] 965036872800,
xp 18 12 [1,2,2,6] 900621802080,
xp 18 12 [1,1,3,6] 1306009504800,
xp 18 12 [1,1,2,7] 2300144726880,
xp 18 12 [1,1,1,8] 1664106444000,
xm 18 12 [4,4,5] 1713033962640000,
xm 18 12 [3,5,5] 1805472140472000,
xm 18 12 [3,4,6] 3745757724508800,
xm 18 12 [2,5,6] 4294284311116800,
xm 18 12 [1,6,6] 2997128159625600,
xm 18 12 [3,3,7] 2102400492192000,
xm 18 12 [2,4,7] 4572845935257600,
xm 18 12 [1,5,7] 6151964183164800,
xm 18 12 [2,3,8] 5227493669798400,
xm 18 12 [1,4,8] 6667868964556800,
xm 18 12 [2,2,9] 3287134918267200,
xm 18 12 [1,3,9] 7707950346096000,
xm 18 12 [1,2,10] 9755811995529600,
xm 18 12 [1,1,11] 7264850335142400,
xp 18 12 [7,8] 3755833884811008000,
xp 18 12 [6,9] 3857150618953632000,
xp 18 12 [5,10] 4088809102970592000,
xp 18 12 [4,11] 4524628663345190400,
xp 18 12 [3,12] 5328725646404160000,
xp 18 12 [2,13] 6901798155059808000,
xp 18 12 [1,14] 10580600022113721600,
xm 13 13 [1,1,2,2] 147026880,
xm 13 13 [1,1,1,3] 86486400,
xm 13 13 [2,3,3] 209420640000,
xm 13 13 [2,2,4] 232008416640,
xm 13 13 [1,3,4] 559394035200,
xm 13 13 [1,2,5] 658507449600,
xm 13 13 [1,1,6] 485188704000,
xp 13 13 [5,5] 74228352307200,
xp 13 13 [4,6] 152511155596800,
xp 13 13 [3,7] 166894535808000,
xp 13 13 [2,8] 202782932352000,
xp 13 13 [1,9] 309179885414400,
xm 13 13 [12] 117871849609113600,
xm 14 13 [1,1,1,1,1] 2702700,
xp 14 13 [1,2,2,2] 864864000,
xp 14 13 [1,1,2,3] 1729728000,
xm 14 13 [1,1,1,4] 151351200,
xp 14 13 [3,3,3] 1047103200000,
xp 14 13 [2,3,4] 6930155232000,
xp 14 13 [1,4,4] 4590280094400,
xp 14 13 [2,2,5] 4063598098560,
xp 14 13 [1,3,5] 9752811868800,
xp 14 13 [1,2,6] 11872852992000,
xp 14 13 [1,1,7] 8842801968000,
xm 14 13 [5,6] 3005624151129600,
xm 14 13 [4,7] 3150906773414400,
xm 14 13 [3,8] 3517332698880000,
xm 14 13 [2,9] 4374849506227200,
xm 14 13 [1,10] 6713309092089600,
xp 14 13 [13] 2946796240227840000,
xp 15 13 [1,1,1,1,2] 67567500,
xm 15 13 [2,2,2,2] 1305944640,
xm 15 13 [1,2,2,3] 10585935360,
xm 15 13 [1,1,3,3] 1247875200,
xp 15 13 [1,1,2,4] 2443240800,
xp 15 13 [1,1,1,5] 10616205600,
xm 15 13 [3,3,4] 26957329027200,
xm 15 13 [2,4,4] 29643660446400,
xm 15 13 [2,3,5] 62966337033600,
xm 15 13 [1,4,5] 82903960339200,
xm 15 13 [2,2,6] 38255961744000,
xm 15 13 [1,3,6] 91486611216000,
xm 15 13 [1,2,7] 113783410540800,
xm 15 13 [1,1,8] 85521644208000,
xp 15 13 [6,6] 15844632631027200,
xp 15 13 [5,7] 32314994712000000,
xp 15 13 [4,8] 34444185404428800,
xp 15 13 [3,9] 39118972859366400,
xp 15 13 [2,10] 49487933387692800,
xp 15 13 [1,11] 76360894882272000,
xm 15 13 [14] 38308351122961920000,
xm 16 13 [1,1,1,2,2] 459459000,
xm 16 13 [1,1,1,1,3] 283783500,
xp 16 13 [2,2,2,3] 19027008000,
xp 16 13 [1,2,3,3] 30949776000,
xp 16 13 [1,2,2,4] 12345933600,
xm 16 13 [1,1,3,4] 36562125600,
xm 16 13 [1,1,2,5] 91610719200,
xm 16 13 [1,1,1,6] 105275570400,
xp 16 13 [3,4,4] 159850665374400,
xp 16 13 [3,3,5] 169557625036800,
xp 16 13 [2,4,5] 372029725267200,
xp 16 13 [1,5,5] 258571719806400,
xp 16 13 [2,3,6] 410678508240000,
xp 16 13 [1,4,6] 537815851372800,
xp 16 13 [2,2,7] 255374793273600,
xp 16 13 [1,3,7] 608821445232000,
xp 16 13 [1,2,8] 768396204576000,
xp 16 13 [1,1,9] 581769796608000,
xm 16 13 [6,7] 236182075255526400,
xm 16 13 [5,8] 244558361625177600,
xm 16 13 [4,9] 264385432479168000,
xm 16 13 [3,10] 304702625805177600,
xm 16 13 [2,11] 390345912788832000,
xm 16 13 [1,12] 604993130790048000,
xp 16 13 [15] 344775160106657280000,
xp 17 13 [1,1,2,2,2] 1216215000,
xp 17 13 [1,1,1,2,3] 2972970000,
xp 17 13 [1,1,1,1,4] 1013512500,
xm 17 13 [2,2,3,3] 89913732480,
xm 17 13 [1,3,3,3] 30344371200,
xm 17 13 [2,2,2,4] 42988065120,
xm 17 13 [1,2,3,4] 32648616000,
xp 17 13 [1,1,4,4] 137837700000,
xp 17 13 [1,2,2,5] 134853919200,
xp 17 13 [1,1,3,5] 359848288800,
xp 17 13 [1,1,2,6] 720237117600,
xp 17 13 [1,1,1,7] 647545298400,
xm 17 13 [4,4,4] 245958168456000,
xm 17 13 [3,4,5] 1563311993443200,
xm 17 13 [2,5,5] 906830531006400,
xm 17 13 [3,3,6] 861666597792000,
xm 17 13 [2,4,6] 1887052469702400,
xm 17 13 [1,5,6] 2607297976483200,
xm 17 13 [2,3,7] 2138361277852800,
xm 17 13 [1,4,7] 2785848889824000,
xm 17 13 [2,2,8] 1350993676032000,
xm 17 13 [1,3,8] 3210793329744000,
xm 17 13 [1,2,9] 4095985871577600,
xm 17 13 [1,1,10] 3117984341472000,
xp 17 13 [7,7] 685522983924979200,
xp 17 13 [6,8] 1391552917288934400,
xp 17 13 [5,9] 1459197526833446400,
xp 17 13 [4,10] 1596958192878048000,
xp 17 13 [3,11] 1863262372843872000,
xp 17 13 [2,12] 2409894933237792000,
xp 17 13 [1,13] 3747327299587872000,
xm 18 13 [1,2,2,2,2] 1354052700,
xm 18 13 [1,1,2,2,3] 9810801000,
xm 18 13 [1,1,1,3,3] 3945942000,
xm 18 13 [1,1,1,2,4] 8789180400,
xm 18 13 [1,1,1,1,5] 3154050900,
xp 18 13 [2,3,3,3] 180571248000,
xp 18 13 [2,2,3,4] 381340159200,
xp 18 13 [1,3,3,4] 93306470400,
xm 18 13 [1,2,4,4] 183134952000,
xp 18 13 [2,2,2,5] 15485389920,
xm 18 13 [1,2,3,5] 742442500800,
xm 18 13 [1,1,4,5] 1450290441600,
xm 18 13 [1,2,2,6] 1175985851040,
xm 18 13 [1,1,3,6] 2028214188000,
xm 18 13 [1,1,2,7] 3783550811040,
xm 18 13 [1,1,1,8] 3024580759200,
xp 18 13 [4,4,5] 2993332718376000,
xp 18 13 [3,5,5] 3167198865230400,
xp 18 13 [3,4,6] 6588350168400000,
xp 18 13 [2,5,6] 7623600160176000,
xp 18 13 [1,6,6] 5445487527480000,
xp 18 13 [3,3,7] 3728907406224000,
xp 18 13 [2,4,7] 8153763366228480,
xp 18 13 [1,5,7] 11194800394377600,
xp 18 13 [2,3,8] 9411933074544000,
xp 18 13 [1,4,8] 12197135997446400,
xp 18 13 [2,2,9] 6014186262564480,
xp 18 13 [1,3,9] 14244047247830400,
xp 18 13 [1,2,10] 18320727365740800,
xp 18 13 [1,1,11] 13996238544288000,
xm 18 13 [7,8] 6702006756667622400,
xm 18 13 [6,9] 6883705930643942400,
xm 18 13 [5,10] 7296477935774227200,
xm 18 13 [4,11] 8071128408517574400,
xm 18 13 [3,12] 9514105567398432000,
xm 18 13 [2,13] 12397058913631392000,
xm 18 13 [1,14] 19317652590998361600,
xp 14 14 [1,1,1,1,1] 540540,
xm 14 14 [1,2,2,2] 242161920,
xm 14 14 [1,1,2,3] 670269600,
xm 14 14 [1,1,1,4] 151351200,
xm 14 14 [3,3,3] 211273920000,
xm 14 14 [2,3,4] 1406268864000,
xm 14 14 [1,4,4] 945743198400,
xm 14 14 [2,2,5] 830373223680,
xm 14 14 [1,3,5] 2012625014400,
xm 14 14 [1,2,6] 2473320769920,
xm 14 14 [1,1,7] 1889762434560,
xp 14 14 [5,6] 638668161331200,
xp 14 14 [4,7] 670074140736000,
xp 14 14 [3,8] 747989738496000,
xp 14 14 [2,9] 927195613344000,
xp 14 14 [1,10] 1440278257017600,
xm 14 14 [13] 631456337191680000,
xm 15 14 [1,1,1,1,2] 29729700,
xp 15 14 [2,2,2,2] 726485760,
xp 15 14 [1,2,2,3] 7394587200,
xp 15 14 [1,1,3,3] 2517372000,
xp 15 14 [1,1,2,4] 3545942400,
xm 15 14 [1,1,1,5] 2010808800,
xp 15 14 [3,3,4] 11468096640000,
xp 15 14 [2,4,4] 12681111643200,
xp 15 14 [2,3,5] 26998027056000,
xp 15 14 [1,4,5] 36070017984000,
xp 15 14 [2,2,6] 16554067770240,
xp 15 14 [1,3,6] 39951008697600,
xp 15 14 [1,2,7] 50259270821760,
xp 15 14 [1,1,8] 38660977555200,
xm 15 14 [6,6] 7025349774643200,
xm 15 14 [5,7] 14333353363929600,
xm 15 14 [4,8] 15287040280512000,
xm 15 14 [3,9] 17351803621152000,
xm 15 14 [2,10] 21937551424588800,
xm 15 14 [1,11] 34272521489606400,
xp 15 14 [14] 17049321104175360000,
xp 16 14 [1,1,1,2,2] 329729400,
xp 16 14 [1,1,1,1,3] 205405200,
xm 16 14 [2,2,2,3] 18123225120,
xm 16 14 [1,2,3,3] 40382971200,
xm 16 14 [1,2,2,4] 31286455200,
xm 16 14 [1,1,3,4] 2940537600,
xp 16 14 [1,1,2,5] 27416188800,
xp 16 14 [1,1,1,6] 53837784000,
xm 16 14 [3,4,4] 107045168630400,
xm 16 14 [3,3,5] 113864188838400,
xm 16 14 [2,4,5] 251175186662400,
xm 16 14 [1,5,5] 177583087281600,
xm 16 14 [2,3,6] 278425044817920,
xm 16 14 [1,4,6] 369848451772800,
xm 16 14 [2,2,7] 175039530906240,
xm 16 14 [1,3,7] 420905767201920,
xm 16 14 [1,2,8] 537921866401920,
xm 16 14 [1,1,9] 416310459364800,
xp 16 14 [6,7] 163634982051340800,
xp 16 14 [5,8] 169522524358387200,
xp 16 14 [4,9] 183327609969504000,
xp 16 14 [3,10] 211167682799673600,
xp 16 14 [2,11] 270931374819705600,
xp 16 14 [1,12] 425317873492512000]
def extC4_3 : PL := [
xm 16 14 [15] 238690495458455040000,
xm 17 14 [1,1,2,2,2] 1248647400,
xm 17 14 [1,1,1,2,3] 3091888800,
xm 17 14 [1,1,1,1,4] 1070269200,
xp 17 14 [2,2,3,3] 125216863200,
xp 17 14 [1,3,3,3] 58162104000,
xp 17 14 [2,2,2,4] 72086414400,
xp 17 14 [1,2,3,4] 237578140800,
xm 17 14 [1,1,4,4] 67135068000,
xp 17 14 [1,2,2,5] 2140538400,
xm 17 14 [1,1,3,5] 204626822400,
xm 17 14 [1,1,2,6] 507567060000,
xm 17 14 [1,1,1,7] 540842702400,
xp 17 14 [4,4,4] 229582617264000,
xp 17 14 [3,4,5] 1463687184960000,
xp 17 14 [2,5,5] 856006365614400,
xp 17 14 [3,3,6] 810482562489600,
xp 17 14 [2,4,6] 1784083751049600,
xp 17 14 [1,5,6] 2508032259532800,
xp 17 14 [2,3,7] 2033225504069760,
xp 17 14 [1,4,7] 2686322416377600,
xp 17 14 [2,2,8] 1300277757018240,
xp 17 14 [1,3,8] 3116438397072000,
xp 17 14 [1,2,9] 4027865377536000,
xp 17 14 [1,1,10] 3132806856379200,
xm 17 14 [7,7] 658539515643609600,
xm 17 14 [6,8] 1337097106663718400,
xm 17 14 [5,9] 1402769047391712000,
xm 17 14 [4,10] 1535400958002912000,
xm 17 14 [3,11] 1791139627755878400,
xm 17 14 [2,12] 2323896593982163200,
xm 17 14 [1,13] 3662095946635526400,
xp 18 14 [1,2,2,2,2] 1840538700,
xp 18 14 [1,1,2,2,3] 13556743200,
xp 18 14 [1,1,1,3,3] 5545940400,
xp 18 14 [1,1,1,2,4] 12389176800,
xp 18 14 [1,1,1,1,5] 4543238700,
xm 18 14 [2,3,3,3] 327974961600,
xm 18 14 [2,2,3,4] 831566736000,
xm 18 14 [1,3,3,4] 476793345600,
xm 18 14 [1,2,4,4] 183653870400,
xm 18 14 [2,2,2,5] 167999832000,
xp 18 14 [1,2,3,5] 29318889600,
xp 18 14 [1,1,4,5] 1340993253600,
xp 18 14 [1,2,2,6] 891761270400,
xp 18 14 [1,1,3,6] 2007025020000,
xp 18 14 [1,1,2,7] 4057552699200,
xp 18 14 [1,1,1,8] 3588969384000,
xm 18 14 [4,4,5] 3650792241096000,
xm 18 14 [3,5,5] 3874986308793600,
xm 18 14 [3,4,6] 8074959795302400,
xm 18 14 [2,5,6] 9418944181046400,
xm 18 14 [1,6,6] 6859693767326400,
xm 18 14 [3,3,7] 4597645772079360,
xm 18 14 [2,4,7] 10102359246819840,
xm 18 14 [1,5,7] 14115252998246400,
xm 18 14 [2,3,8] 11742241905313920,
xm 18 14 [1,4,8] 15431592265689600,
xm 18 14 [2,2,9] 7600566384290880,
xm 18 14 [1,3,9] 18156745951344000,
xm 18 14 [1,2,10] 23665378712976000,
xm 18 14 [1,1,11] 18473899536892800,
xp 18 14 [7,8] 8357607243854668800,
xp 18 14 [6,9] 8587274376435955200,
xp 18 14 [5,10] 9105807091372992000,
xp 18 14 [4,11] 10073033876966860800,
xp 18 14 [3,12] 11878700372098560000,
xp 18 14 [2,13] 15545997444603225600,
xp 18 14 [1,14] 24565756371213657600,
xp 15 15 [1,1,1,1,2] 5405400,
xm 15 15 [2,2,2,2] 155675520,
xm 15 15 [1,2,2,3] 1816214400,
xm 15 15 [1,1,3,3] 826254000,
xm 15 15 [1,1,2,4] 1470268800,
xm 15 15 [1,1,1,5] 129729600,
xm 15 15 [3,3,4] 2100145320000,
xm 15 15 [2,4,4] 2332514620800,
xm 15 15 [2,3,5] 4970648592000,
xm 15 15 [1,4,5] 6722635046400,
xm 15 15 [2,2,6] 3066496392960,
xm 15 15 [1,3,6] 7462306051200,
xm 15 15 [1,2,7] 9463203509760,
xm 15 15 [1,1,8] 7435711483200,
xp 15 15 [6,6] 1340572437388800,
xp 15 15 [5,7] 2735818237152000,
xp 15 15 [4,8] 2920200323040000,
xp 15 15 [3,9] 3315382630560000,
xp 15 15 [2,10] 4181550326553600,
xp 15 15 [1,11] 6603188899507200,
xm 15 15 [14] 3278715596956800000,
xm 16 15 [1,1,1,2,2] 129729600,
xm 16 15 [1,1,1,1,3] 81081000,
xp 16 15 [2,2,2,3] 8562153600,
xp 16 15 [1,2,3,3] 22424688000,
xp 16 15 [1,2,2,4] 20030250240,
xp 16 15 [1,1,3,4] 12259447200,
xp 16 15 [1,1,2,5] 3113510400,
xm 16 15 [1,1,1,6] 12843230400,
xp 16 15 [3,4,4] 41064607584000,
xp 16 15 [3,3,5] 43754550840000,
xp 16 15 [2,4,5] 96947708457600,
xp 16 15 [1,5,5] 69491004710400,
xp 16 15 [2,3,6] 107729016595200,
xp 16 15 [1,4,6] 144852179472000,
xp 16 15 [2,2,7] 68254063637760,
xp 16 15 [1,3,7] 165423921062400,
xp 16 15 [1,2,8] 213428024409600,
xp 16 15 [1,1,9] 168437669400000,
xm 16 15 [6,7] 64948883980780800,
xm 16 15 [5,8] 67319076464640000,
xm 16 15 [4,9] 72851083905600000,
xm 16 15 [3,10] 83900021613408000,
xm 16 15 [2,11] 107622123556147200,
xm 16 15 [1,12] 170817034804416000,
xp 16 15 [15] 95082752311747200000,
xp 17 15 [1,1,2,2,2] 789188400,
xp 17 15 [1,1,1,2,3] 1967565600,
xp 17 15 [1,1,1,1,4] 686485800,
xm 17 15 [2,2,3,3] 95476352400,
xm 17 15 [1,3,3,3] 51845508000,
xm 17 15 [2,2,2,4] 59208589440,
xm 17 15 [1,2,3,4] 261361900800,
xm 17 15 [1,1,4,4] 1798196400,
xm 17 15 [1,2,2,5] 75061546560,
xp 17 15 [1,1,3,5] 33383750400,
xp 17 15 [1,1,2,6] 190702512000,
xp 17 15 [1,1,1,7] 266615949600,
xm 17 15 [4,4,4] 137894839992000,
xm 17 15 [3,4,5] 881021003990400,
xm 17 15 [2,5,5] 518610280406400,
xm 17 15 [3,3,6] 489328458091200,
xm 17 15 [2,4,6] 1081883584454400,
xm 17 15 [1,5,6] 1542727844985600,
xm 17 15 [2,3,7] 1237562472706560,
xm 17 15 [1,4,7] 1655068961145600,
xm 17 15 [2,2,8] 798682435911360,
xm 17 15 [1,3,8] 1928836038729600,
xm 17 15 [1,2,9] 2518866237888000,
xm 17 15 [1,1,10] 1996165571400000,
xp 17 15 [7,7] 407120745570739200,
xp 17 15 [6,8] 826803207271641600,
xp 17 15 [5,9] 867919551539040000,
xp 17 15 [4,10] 950459794187904000,
xp 17 15 [3,11] 1108604617491571200,
xp 17 15 [2,12] 1440501849615628800,
xp 17 15 [1,13] 2296072389157747200,
xm 18 15 [1,2,2,2,2] 1643241600,
xm 18 15 [1,1,2,2,3] 12227014800,
xm 18 15 [1,1,1,3,3] 5054049000,
xm 18 15 [1,1,1,2,4] 11308096800,
xm 18 15 [1,1,1,1,5] 4199995800,
xp 18 15 [2,3,3,3] 348601968000,
xp 18 15 [2,2,3,4] 956353638240,
xp 18 15 [1,3,3,4] 690510506400,
xp 18 15 [1,2,4,4] 492136444800,
xp 18 15 [2,2,2,5] 249547858560,
xp 18 15 [1,2,3,5] 700669569600,
xm 18 15 [1,1,4,5] 674334460800,
xm 18 15 [1,2,2,6] 281642961600,
xm 18 15 [1,1,3,6] 1188582595200,
xm 18 15 [1,1,2,7] 2765813450400,
xm 18 15 [1,1,1,8] 2745597254400,
xp 18 15 [4,4,5] 3049982463528000,
xp 18 15 [3,5,5] 3245014748102400,
xp 18 15 [3,4,6] 6769779608592000,
xp 18 15 [2,5,6] 7949221715635200,
xp 18 15 [1,6,6] 5882017382841600,
xp 18 15 [3,3,7] 3870503243006400,
xp 18 15 [2,4,7] 8541227696601600,
xp 18 15 [1,5,7] 12111080645664000,
xp 18 15 [2,3,8] 9975584575756800,
xp 18 15 [1,4,8] 13271066945136000,
xp 18 15 [2,2,9] 6522481650484800,
xp 18 15 [1,3,9] 15699706246224000,
xp 18 15 [1,2,10] 20685579314400000,
xp 18 15 [1,1,11] 16449350426308800,
xm 18 15 [7,8] 7144531510769452800,
xm 18 15 [6,9] 7343646379157088000,
xm 18 15 [5,10] 7791610066976736000,
xm 18 15 [4,11] 8622353253530016000,
xm 18 15 [3,12] 10169333284061952000,
xm 18 15 [2,13] 13346558290012147200,
xm 18 15 [1,14] 21344033756485440000,
xp 16 16 [1,1,1,2,2] 21621600,
xp 16 16 [1,1,1,1,3] 13513500,
xm 16 16 [2,2,2,3] 1643241600,
xm 16 16 [1,2,3,3] 4818528000,
xm 16 16 [1,2,2,4] 4549184640,
xm 16 16 [1,1,3,4] 3935131200,
xm 16 16 [1,1,2,5] 2789186400,
xp 16 16 [1,1,1,6] 713512800,
xm 16 16 [3,4,4] 6882948072000,
xm 16 16 [3,3,5] 7339452120000,
xm 16 16 [2,4,5] 16318686384000,
xm 16 16 [1,5,5] 11822565081600,
xm 16 16 [2,3,6] 18157473734400,
xm 16 16 [1,4,6] 24662375337600,
xm 16 16 [2,2,7] 11564900867520,
xm 16 16 [1,3,7] 28230631228800,
xm 16 16 [1,2,8] 36670925491200,
xm 16 16 [1,1,9] 29463451617600,
xp 16 16 [6,7] 11261920500230400,
xp 16 16 [5,8] 11677321944288000,
xp 16 16 [4,9] 12646443569760000,
xp 16 16 [3,10] 14569315716384000,
xp 16 16 [2,11] 18656070252019200,
xp 16 16 [1,12] 29892017329574400,
xm 16 16 [15] 16601750403638400000,
xm 17 16 [1,1,2,2,2] 281080800,
xm 17 16 [1,1,1,2,3] 702702000,
xm 17 16 [1,1,1,1,4] 245945700,
xp 17 16 [2,2,3,3] 39104208000,
xp 17 16 [1,3,3,3] 23706540000,
xp 17 16 [2,2,2,4] 25150245120,
xp 17 16 [1,2,3,4] 130075545600,
xp 17 16 [1,1,4,4] 16245028800,
xp 17 16 [1,2,2,5] 50049679680,
xp 17 16 [1,1,3,5] 21599978400,
xm 17 16 [1,1,2,6] 24259435200,
xm 17 16 [1,1,1,7] 68021553600,
xp 17 16 [4,4,4] 48180636504000,
xp 17 16 [3,4,5] 308238826896000,
xp 17 16 [2,5,5] 182335872700800,
xp 17 16 [3,3,6] 171521341992000,
xp 17 16 [2,4,6] 380594992377600,
xp 17 16 [1,5,6] 548945353756800,
xp 17 16 [2,3,7] 436388060908800,
xp 17 16 [1,4,7] 589647929270400,
xp 17 16 [2,2,8] 283486289486400,
xp 17 16 [1,3,8] 689367526848000,
xp 17 16 [1,2,9] 907413146640000,
xp 17 16 [1,1,10] 731215398513600,
xm 17 16 [7,7] 146404966502995200,
xm 17 16 [6,8] 297379348890624000,
xm 17 16 [5,9] 312332465180736000,
xm 17 16 [4,10] 342267637840128000,
xm 17 16 [3,11] 399235981304160000,
xm 17 16 [2,12] 518765667785164800,
xm 17 16 [1,13] 835002702293760000,
xp 18 16 [1,2,2,2,2] 929728800,
xp 18 16 [1,1,2,2,3] 6956749800,
xp 18 16 [1,1,1,3,3] 2891889000,
xp 18 16 [1,1,1,2,4] 6475669200,
xp 18 16 [1,1,1,1,5] 2421619200,
xm 18 16 [2,3,3,3] 224046108000,
xm 18 16 [2,2,3,4] 641564763840,
xm 18 16 [1,3,3,4] 529985570400,
xm 18 16 [1,2,4,4] 447250003200,
xm 18 16 [2,2,2,5] 186313327200,
xm 18 16 [1,2,3,5] 763199236800,
xp 18 16 [1,1,4,5] 93167474400,
xm 18 16 [1,2,2,6] 91550178720,
xp 18 16 [1,1,3,6] 345923978400,
xp 18 16 [1,1,2,7] 1113888615840,
xp 18 16 [1,1,1,8] 1289317629600,
xm 18 16 [4,4,5] 1664387452728000,
xm 18 16 [3,5,5] 1773804390321600,
xm 18 16 [3,4,6] 3703116642825600,
xm 18 16 [2,5,6] 4371361077283200,
xm 18 16 [1,6,6] 3276100248220800,
xm 18 16 [3,3,7] 2123145941716800,
xm 18 16 [2,4,7] 4702408962451200,
xm 18 16 [1,5,7] 6748875932198400,
xm 18 16 [2,3,8] 5510086511529600,
xm 18 16 [1,4,8] 7407769803033600,
xm 18 16 [2,2,9] 3630403072296000,
xm 18 16 [1,3,9] 8797807677859200,
xm 18 16 [1,2,10] 11692431723772800,
xm 18 16 [1,1,11] 9449329361472000,
xp 18 16 [7,8] 3991612511388902400,
xp 18 16 [6,9] 4104179624248704000,
xp 18 16 [5,10] 4357112947963776000,
xp 18 16 [4,11] 4824354742343136000,
xp 18 16 [3,12] 5690312113444358400,
xp 18 16 [2,13] 7478678958329779200,
xp 18 16 [1,14] 12082866896580480000,
xp 17 17 [1,1,2,2,2] 43243200,
xp 17 17 [1,1,1,2,3] 108108000,
xp 17 17 [1,1,1,1,4] 37837800,
xm 17 17 [2,2,3,3] 6764472000,
xm 17 17 [1,3,3,3] 4478760000,
xm 17 17 [2,2,2,4] 4428103680,
xm 17 17 [1,2,3,4] 25599974400,
xm 17 17 [1,1,4,4] 4944139200,
xm 17 17 [1,2,2,5] 11052961920,
xm 17 17 [1,1,3,5] 8562153600,
xm 17 17 [1,1,2,6] 2854051200,
xp 17 17 [1,1,1,7] 6183777600,
xm 17 17 [4,4,4] 7444352361600,
xm 17 17 [3,4,5] 47656068768000,
xm 17 17 [2,5,5] 28286916940800,
xm 17 17 [3,3,6] 26547380640000,
xm 17 17 [2,4,6] 59071355481600,
xm 17 17 [1,5,6] 85958753126400,
xm 17 17 [2,3,7] 67827824064000,
xm 17 17 [1,4,7] 92433204864000,
xm 17 17 [2,2,8] 44262442224000,
xm 17 17 [1,3,8] 108311243040000,
xm 17 17 [1,2,9] 143395316064000,
xm 17 17 [1,1,10] 117327450240000,
xp 17 17 [7,7] 23279043497149440,
xp 17 17 [6,8] 47291137487193600,
xp 17 17 [5,9] 49689533705011200,
xp 17 17 [4,10] 54489214440460800,
xp 17 17 [3,11] 63582091834060800,
xp 17 17 [2,12] 82510294726379520,
xp 17 17 [1,13] 133924256129664000,
xm 18 17 [1,2,2,2,2] 302702400,
xm 18 17 [1,1,2,2,3] 2270268000,
xm 18 17 [1,1,1,3,3] 945945000,
xm 18 17 [1,1,1,2,4] 2118916800,
xm 18 17 [1,1,1,1,5] 794593800,
xp 18 17 [2,3,3,3] 81081000000,
xp 18 17 [2,2,3,4] 237924086400,
xp 18 17 [1,3,3,4] 217188972000,
xp 18 17 [1,2,4,4] 197765568000,
xp 18 17 [2,2,2,5] 73011818880,
xp 18 17 [1,2,3,5] 360518558400,
xp 18 17 [1,1,4,5] 63567504000,
xp 18 17 [1,2,2,6] 103316653440,
xm 18 17 [1,1,3,6] 7135128000,
xm 18 17 [1,1,2,7] 221379238080,
xm 18 17 [1,1,1,8] 330832101600,
xp 18 17 [4,4,5] 534589995139200,
xp 18 17 [3,5,5] 570339203616000,
xp 18 17 [3,4,6] 1191236862816000,
xp 18 17 [2,5,6] 1411830631411200,
xp 18 17 [1,6,6] 1068782019782400,
xp 18 17 [3,3,7] 684255068640000,
xp 18 17 [2,4,7] 1520022004300800,
xp 18 17 [1,5,7] 2202708197289600,
xp 18 17 [2,3,8] 1784975512320000,
xp 18 17 [1,4,8] 2421077362704000,
xp 18 17 [2,2,9] 1182647466000000,
xp 18 17 [1,3,9] 2883586738032000,
xp 18 17 [1,2,10] 3858061785177600,
xp 18 17 [1,1,11] 3163148058470400,
xm 18 17 [7,8] 1313156092248000000,
xm 18 17 [6,9] 1350534208037414400,
xm 18 17 [5,10] 1434504070359360000,
xm 18 17 [4,11] 1589348146088102400,
xm 18 17 [3,12] 1874939585815296000,
xm 18 17 [2,13] 2464530136548480000,
xm 18 17 [1,14] 4016686821795648000,
xp 18 18 [1,2,2,2,2] 43243200,
xp 18 18 [1,1,2,2,3] 324324000,
xp 18 18 [1,1,1,3,3] 135135000,
xp 18 18 [1,1,1,2,4] 302702400,
xp 18 18 [1,1,1,1,5] 113513400,
xm 18 18 [2,3,3,3] 12741300000,
xm 18 18 [2,2,3,4] 37881043200,
xm 18 18 [1,3,3,4] 37513476000,
xm 18 18 [1,2,4,4] 35517081600,
xm 18 18 [2,2,2,5] 11987015040,
xm 18 18 [1,2,3,5] 67070203200,
xm 18 18 [1,1,4,5] 22702680000,
xm 18 18 [1,2,2,6] 24544840320,
xm 18 18 [1,1,3,6] 14270256000,
xp 18 18 [1,1,2,7] 11749177440,
xp 18 18 [1,1,1,8] 34010776800,
xm 18 18 [4,4,5] 76649696323200,
xm 18 18 [3,5,5] 81818807616000,
xm 18 18 [3,4,6] 170956629043200,
xm 18 18 [2,5,6] 203179904928000,
xm 18 18 [1,6,6] 155011863283200,
xm 18 18 [3,3,7] 98316040680000,
xm 18 18 [2,4,7] 218898306506880,
xm 18 18 [1,5,7] 319599507427200,
xm 18 18 [2,3,8] 257417812080000,
xm 18 18 [1,4,8] 351713291529600,
xm 18 18 [2,2,9] 171220321134720,
xm 18 18 [1,3,9] 419797238889600,
xm 18 18 [1,2,10] 564440813164800,
xm 18 18 [1,1,11] 468890774352000,
xp 18 18 [7,8] 192914567733888000,
xp 18 18 [6,9] 198446352558854400,
xp 18 18 [5,10] 210871117820563200,
xp 18 18 [4,11] 233776117877702400,
xp 18 18 [3,12] 275886280653984000,
xp 18 18 [2,13] 362277834478560000,
xp 18 18 [1,14] 594852686876448000]
/-- row 4 -/
def extC4 : PL := extC4_0 ++ extC4_1 ++ extC4_2 ++ extC4_3
def extC5_0 : PL := [
xp 9 9 [1,1,2] 959999040,
xm 9 9 [3,3] 39474864000,
xm 9 9 [2,4] 85621536000,
xm 9 9 [1,5] 135437702400,
xp 9 9 [8] 20035439424000,
xm 10 9 [1,2,2] 7238911680,
xm 10 9 [1,1,3] 8951342400,
xp 10 9 [3,4] 980755776000,
xp 10 9 [2,5] 1176906931200,
xp 10 9 [1,6] 1849425177600,
xm 10 9 [9] 340602470208000,
xm 11 9 [1,1,1,1] 75675600,
xp 11 9 [2,2,2] 10118908800,
xp 11 9 [1,2,3] 71714522880,
xp 11 9 [1,1,4] 47999952000,
xm 11 9 [4,4] 3218591376000,
xm 11 9 [3,5] 6876187718400,
xm 11 9 [2,6] 8682023750400,
xm 11 9 [1,7] 13613824224000,
xp 11 9 [10] 3065422231872000,
xp 12 9 [1,1,1,2] 670269600,
xm 12 9 [2,2,3] 106482055680,
xm 12 9 [1,3,3] 123632308800,
xm 12 9 [1,2,4] 275286211200,
xm 12 9 [1,1,5] 190702512000,
xp 12 9 [4,5] 31384184832000,
xp 12 9 [3,6] 35195121561600,
xp 12 9 [2,7] 45619154380800,
xp 12 9 [1,8] 71459733945600,
xm 12 9 [11] 19414340801856000,
xm 13 9 [1,1,2,2] 1859457600,
xm 13 9 [1,1,1,3] 1383782400,
xp 13 9 [2,3,3] 296484027840,
xp 13 9 [2,2,4] 324765080640,
xp 13 9 [1,3,4] 748799251200,
xp 13 9 [1,2,5] 880604524800,
xp 13 9 [1,1,6] 620237217600,
xm 13 9 [5,5] 59950642752000,
xm 13 9 [4,6] 125468242099200,
xm 13 9 [3,7] 145525476096000,
xm 13 9 [2,8] 191312760038400,
xm 13 9 [1,9] 299195895398400,
xp 13 9 [12] 97071704009280000,
xm 14 9 [1,1,1,1,1] 540540,
xp 14 9 [1,2,2,2] 2010808800,
xp 14 9 [1,1,2,3] 6767560800,
xp 14 9 [1,1,1,4] 2637835200,
xm 14 9 [3,3,3] 234680846400,
xm 14 9 [2,3,4] 1527176851200,
xm 14 9 [1,4,4] 949490942400,
xm 14 9 [2,2,5] 883380738240,
xm 14 9 [1,3,5] 2026635811200,
xm 14 9 [1,2,6] 2454068897280,
xm 14 9 [1,1,7] 1741931231040,
xp 14 9 [5,6] 400036270233600,
xp 14 9 [4,7] 432821534745600,
xp 14 9 [3,8] 513523724313600,
xp 14 9 [2,9] 680537092435200,
xp 14 9 [1,10] 1061210441491200,
xm 14 9 [13] 407701156838976000,
xp 15 9 [1,1,1,1,2] 2702700,
xm 15 9 [2,2,2,2] 745945200,
xm 15 9 [1,2,2,3] 9989179200,
xm 15 9 [1,1,3,3] 5589183600,
xm 15 9 [1,1,2,4] 11740528800,
xm 15 9 [1,1,1,5] 4691887200,
xp 15 9 [3,3,4] 1598528131200,
xp 15 9 [2,4,4] 1723976654400,
xp 15 9 [2,3,5] 3652926076800,
xp 15 9 [1,4,5] 4491238752000,
xp 15 9 [2,2,6] 2184750247680,
xp 15 9 [1,3,6] 4984211232000,
xp 15 9 [1,2,7] 6137714943360,
xp 15 9 [1,1,8] 4367087524800,
xm 15 9 [6,6] 579888198489600,
xm 15 9 [5,7] 1198334109772800,
xm 15 9 [4,8] 1329120227635200,
xm 15 9 [3,9] 1600985728742400,
xm 15 9 [2,10] 2131770754713600,
xm 15 9 [1,11] 3309854592844800,
xp 15 9 [14] 1494904241742912000,
xm 16 9 [1,1,1,2,2] 5405400,
xm 16 9 [1,1,1,1,3] 2702700,
xp 16 9 [2,2,2,3] 4605400800,
xp 16 9 [1,2,3,3] 15308092800,
xp 16 9 [1,2,2,4] 16172956800,
xp 16 9 [1,1,3,4] 17967549600,
xp 16 9 [1,1,2,5] 19416196800,
xp 16 9 [1,1,1,6] 7870262400,
xm 16 9 [3,4,4] 3278137262400,
xm 16 9 [3,3,5] 3453661411200,
xm 16 9 [2,4,5] 7425722304000,
xm 16 9 [1,5,5] 4761206049600,
xm 16 9 [2,3,6] 8169695614080,
xm 16 9 [1,4,6] 9947406268800,
xm 16 9 [2,2,7] 4988622038400,
xm 16 9 [1,3,7] 11305000586880,
xm 16 9 [1,2,8] 14066684311680,
xm 16 9 [1,1,9] 9996314328000,
xp 16 9 [6,7] 3101542066022400,
xp 16 9 [5,8] 3285139547289600,
xp 16 9 [4,9] 3711179856384000,
xp 16 9 [3,10] 4515892639315200,
xp 16 9 [2,11] 6029999418643200,
xp 16 9 [1,12] 9309800852352000,
xm 16 9 [15] 4911828222869568000,
xp 17 9 [1,1,2,2,2] 5405400,
xp 17 9 [1,1,1,2,3] 10810800,
xp 17 9 [1,1,1,1,4] 2702700,
xm 17 9 [2,2,3,3] 10021611600,
xm 17 9 [1,3,3,3] 7329722400,
xm 17 9 [2,2,2,4] 7070263200,
xm 17 9 [1,2,3,4] 46616169600,
xm 17 9 [1,1,4,4] 13589175600,
xm 17 9 [1,2,2,5] 25362136800,
xm 17 9 [1,1,3,5] 27913485600,
xm 17 9 [1,1,2,6] 30767536800,
xm 17 9 [1,1,1,7] 12562149600,
xp 17 9 [4,4,4] 2067889824000,
xp 17 9 [3,4,5] 13020959952000,
xp 17 9 [2,5,5] 7329203481600,
xp 17 9 [3,3,6] 7109700998400,
xp 17 9 [2,4,6] 15255163123200,
xp 17 9 [1,5,6] 19300910428800,
xp 17 9 [2,3,7] 17207541711360,
xp 17 9 [1,4,7] 20755698163200,
xp 17 9 [2,2,8] 10645714759680,
xp 17 9 [1,3,8] 23944711190400,
xp 17 9 [1,2,9] 29994002438400,
xp 17 9 [1,1,10] 21234140928000,
xm 17 9 [7,7] 3775877045740800,
xm 17 9 [6,8] 7739947114099200,
xm 17 9 [5,9] 8357019967296000,
xm 17 9 [4,10] 9569234106432000,
xm 17 9 [3,11] 11724739150924800,
xm 17 9 [2,12] 15679734893222400,
xm 17 9 [1,13] 24046534396684800,
xm 18 9 [1,2,2,2,2] 2702700,
xm 18 9 [1,1,2,2,3] 16216200,
xm 18 9 [1,1,1,3,3] 5405400,
xm 18 9 [1,1,1,2,4] 10810800,
xm 18 9 [1,1,1,1,5] 2702700,
xp 18 9 [2,3,3,3] 9210801600,
xp 18 9 [2,2,3,4] 29254024800,
xp 18 9 [1,3,3,4] 31805373600,
xp 18 9 [1,2,4,4] 33729696000,
xp 18 9 [2,2,2,5] 10637827200,
xp 18 9 [1,2,3,5] 69535065600,
xp 18 9 [1,1,4,5] 40151311200,
xp 18 9 [1,2,2,6] 38529691200,
xp 18 9 [1,1,3,6] 41989147200,
xp 18 9 [1,1,2,7] 46962115200,
xp 18 9 [1,1,1,8] 19221602400,
xm 18 9 [4,4,5] 11504420928000,
xm 18 9 [3,5,5] 12042279849600,
xm 18 9 [3,4,6] 24982029072000,
xm 18 9 [2,5,6] 28000577404800,
xm 18 9 [1,6,6] 18149430499200,
xm 18 9 [3,3,7] 13988794659840,
xm 18 9 [2,4,7] 29963230577280,
xm 18 9 [1,5,7] 37453973356800,
xm 18 9 [2,3,8] 34369107252480,
xm 18 9 [1,4,8] 41062531910400,
xm 18 9 [2,2,9] 21439165587840,
xm 18 9 [1,3,9] 47843238643200,
xm 18 9 [1,2,10] 60186231705600,
xm 18 9 [1,1,11] 42371244115200,
xp 18 9 [7,8] 17410488621926400,
xp 18 9 [6,9] 18190946046873600,
xp 18 9 [5,10] 19936803414528000,
xp 18 9 [4,11] 23056561073145600,
xp 18 9 [3,12] 28384652263968000,
xp 18 9 [2,13] 37980959900083200,
xp 18 9 [1,14] 57811592609971200,
xp 10 10 [1,2,2] 7238911680,
xp 10 10 [1,1,3] 8951342400,
xm 10 10 [3,4] 980755776000,
xm 10 10 [2,5] 1176906931200,
xm 10 10 [1,6] 1849425177600,
xp 10 10 [9] 340602470208000,
xp 11 10 [1,1,1,1] 151351200,
xm 11 10 [2,2,2] 21716735040,
xm 11 10 [1,2,3] 153340387200,
xm 11 10 [1,1,4] 100799899200,
xp 11 10 [4,4] 6865290432000,
xp 11 10 [3,5] 14711336640000,
xp 11 10 [2,6] 18494251776000,
xp 11 10 [1,7] 28717463174400,
xm 11 10 [10] 6471446933952000,
xm 12 10 [1,1,1,2] 2162160000,
xp 12 10 [2,2,3] 368406118080,
xp 12 10 [1,3,3] 424604980800,
xp 12 10 [1,2,4] 936388252800,
xp 12 10 [1,1,5] 634766932800,
xm 12 10 [4,5] 106902379584000,
xm 12 10 [3,6] 119960442201600,
xm 12 10 [2,7] 154478375251200,
xm 12 10 [1,8] 238421729145600,
xp 12 10 [11] 64714469339520000,
xp 13 10 [1,1,2,2] 8691883200,
xp 13 10 [1,1,1,3] 6443236800,
xm 13 10 [2,3,3] 1462960699200,
xm 13 10 [2,2,4] 1592949758400,
xm 13 10 [1,3,4] 3645920678400,
xm 13 10 [1,2,5] 4228147123200,
xm 13 10 [1,1,6] 2917748433600,
xp 13 10 [5,5] 288342198144000,
xp 13 10 [4,6] 604005450048000,
xp 13 10 [3,7] 699134090054400,
xp 13 10 [2,8] 911612493792000,
xp 13 10 [1,9] 1402480759680000,
xm 13 10 [12] 453001285376640000,
xp 14 10 [1,1,1,1,1] 2702700,
xm 14 10 [1,2,2,2] 12713500800,
xm 14 10 [1,1,2,3] 42810768000,
xm 14 10 [1,1,1,4] 16691875200,
xp 14 10 [3,3,3] 1544301158400,
xp 14 10 [2,3,4] 10000595404800,
xp 14 10 [1,4,4] 6162026270400,
xp 14 10 [2,2,5] 5717961849600,
xp 14 10 [1,3,5] 13061954505600,
xp 14 10 [1,2,6] 15577670908800,
xp 14 10 [1,1,7] 10870043184000,
xm 14 10 [5,6] 2540437675776000,
xm 14 10 [4,7] 2748969705081600,
xm 14 10 [3,8] 3248361205689600,
xm 14 10 [2,9] 4263541509427200,
xm 14 10 [1,10] 6544910211840000,
xp 14 10 [13] 2491507069571520000,
xm 15 10 [1,1,1,1,2] 18918900,
xp 15 10 [2,2,2,2] 6032426400,
xp 15 10 [1,2,2,3] 81599918400,
xp 15 10 [1,1,3,3] 45989143200,
xp 15 10 [1,1,2,4] 96389092800,
xp 15 10 [1,1,1,5] 38745907200,
xm 15 10 [3,3,4] 13381867699200,
xm 15 10 [2,4,4] 14364569419200,
xm 15 10 [2,3,5] 30284337283200,
xm 15 10 [1,4,5] 37078016976000,
xm 15 10 [2,2,6] 17846485937280,
xm 15 10 [1,3,6] 40728607920000,
xm 15 10 [1,2,7] 49390860879360,
xm 15 10 [1,1,8] 34702408540800,
xp 15 10 [6,6] 4652313099033600,
xp 15 10 [5,7] 9616978231660800,
xp 15 10 [4,8] 10653459616800000,
xp 15 10 [3,9] 12762574913088000,
xp 15 10 [2,10] 16811069372697600,
xp 15 10 [1,11] 25749546747724800,
xm 15 10 [14] 11460932520028992000,
xp 16 10 [1,1,1,2,2] 48648600,
xp 16 10 [1,1,1,1,3] 27027000,
xm 16 10 [2,2,2,3] 46443196800,
xm 16 10 [1,2,3,3] 156972816000,
xm 16 10 [1,2,2,4] 165275510400,
xm 16 10 [1,1,3,4] 186291705600,
xm 16 10 [1,1,2,5] 200821420800,
xm 16 10 [1,1,1,6] 82335052800,
xp 16 10 [3,4,4] 33878106662400,
xp 16 10 [3,3,5] 35554732012800,
xp 16 10 [2,4,5] 76105869840000,
xp 16 10 [1,5,5] 48659108097600,
xp 16 10 [2,3,6] 83010079152000,
xp 16 10 [1,4,6] 101164958294400,
xp 16 10 [2,2,7] 49891046325120,
xp 16 10 [1,3,7] 113664145795200,
xp 16 10 [1,2,8] 139332703910400,
xp 16 10 [1,1,9] 98263555790400,
xm 16 10 [6,7] 30491272081670400,
xm 16 10 [5,8] 32293835814240000,
xm 16 10 [4,9] 36388981556928000,
xm 16 10 [3,10] 43991146495296000,
xm 16 10 [2,11] 58062703450752000,
xm 16 10 [1,12] 88692883242163200,
xp 16 10 [15] 45843730080115968000,
xm 17 10 [1,1,2,2,2] 59459400,
xm 17 10 [1,1,1,2,3] 129729600,
xm 17 10 [1,1,1,1,4] 37837800,
xp 17 10 [2,2,3,3] 123178255200,
xp 17 10 [1,3,3,3] 92172880800,
xp 17 10 [2,2,2,4] 86789102400,
xp 17 10 [1,2,3,4] 584561577600,
xp 17 10 [1,1,4,4] 173513340000,
xp 17 10 [1,2,2,5] 317059142400,
xp 17 10 [1,1,3,5] 356237481600,
xp 17 10 [1,1,2,6] 391783392000,
xp 17 10 [1,1,1,7] 162702540000,
xm 17 10 [4,4,4] 25795433664000,
xm 17 10 [3,4,5] 161890865136000,
xm 17 10 [2,5,5] 90482893300800,
xm 17 10 [3,3,6] 87761296022400,
xm 17 10 [2,4,6] 187591336732800,
xm 17 10 [1,5,6] 238040324121600,
xm 17 10 [2,3,7] 209330333372160,
xm 17 10 [1,4,7] 254037540556800,
xm 17 10 [2,2,8] 127513662756480,
xm 17 10 [1,3,8] 289656877910400,
xm 17 10 [1,2,9] 357735339561600,
xm 17 10 [1,1,10] 252613498737600,
xp 17 10 [7,7] 44448211378771200,
xp 17 10 [6,8] 91121024381587200,
xp 17 10 [5,9] 98303112940032000,
xp 17 10 [4,10] 112151711415744000,
xp 17 10 [3,11] 136405278686476800,
xp 17 10 [2,12] 180246827234073600,
xp 17 10 [1,13] 274389349999564800,
xp 18 10 [1,2,2,2,2] 35135100,
xp 18 10 [1,1,2,2,3] 227026800,
xp 18 10 [1,1,1,3,3] 81081000,
xp 18 10 [1,1,1,2,4] 172972800,
xp 18 10 [1,1,1,1,5] 51351300,
xm 18 10 [2,3,3,3] 135243108000,
xm 18 10 [2,2,3,4] 429923894400,
xm 18 10 [1,3,3,4] 479804925600,
xm 18 10 [1,2,4,4] 508540032000,
xm 18 10 [2,2,2,5] 156194438400,
xm 18 10 [1,2,3,5] 1046398953600,
xm 18 10 [1,1,4,5] 619458840000,
xm 18 10 [1,2,2,6] 579112934400,
xm 18 10 [1,1,3,6] 647220974400,
xm 18 10 [1,1,2,7] 722788466400,
xm 18 10 [1,1,1,8] 302551048800,
xp 18 10 [4,4,5] 169705776240000,
xp 18 10 [3,5,5] 177095303985600,
xp 18 10 [3,4,6] 366241449974400,
xp 18 10 [2,5,6] 408163310755200,
xp 18 10 [1,6,6] 265899236803200,
xp 18 10 [3,3,7] 203103623923200,
xp 18 10 [2,4,7] 433870009372800,
xp 18 10 [1,5,7] 546749550547200,
xp 18 10 [2,3,8] 491822556825600,
xp 18 10 [1,4,8] 594130951814400,
xp 18 10 [2,2,9] 302437059724800,
xp 18 10 [1,3,9] 684219596860800,
xp 18 10 [1,2,10] 849656750342400,
xp 18 10 [1,1,11] 599560524763200,
xm 18 10 [7,8] 241088189268326400,
xm 18 10 [6,9] 251860885436160000,
xm 18 10 [5,10] 275562296545536000,
xm 18 10 [4,11] 317241147839616000,
xm 18 10 [3,12] 387421285054003200,
xm 18 10 [2,13] 512266115192832000,
xm 18 10 [1,14] 776573632074240000,
xm 11 11 [1,1,1,1] 73873800,
xp 11 11 [2,2,2] 11694196800,
xp 11 11 [1,2,3] 83582928000,
xp 11 11 [1,1,4] 53751297600,
xm 11 11 [4,4] 3798915120000,
xm 11 11 [3,5] 8211883680000,
xm 11 11 [2,6] 10188962784000,
xm 11 11 [1,7] 15731530214400,
xp 11 11 [10] 3595248296640000,
xp 12 11 [1,1,1,2] 2287565280,
xm 12 11 [2,2,3] 426161736000,
xm 12 11 [1,3,3] 496864368000,
xm 12 11 [1,2,4] 1078831353600,
xm 12 11 [1,1,5] 721945224000,
xp 12 11 [4,5] 125863657920000,
xp 12 11 [3,6] 141275534400000,
xp 12 11 [2,7] 179651106835200,
xp 12 11 [1,8] 276043832064000,
xm 12 11 [11] 75500214229440000,
xm 13 11 [1,1,2,2] 14905931040,
xm 13 11 [1,1,1,3] 11243232000,
xp 13 11 [2,3,3] 2711255976000,
xp 13 11 [2,2,4] 2936485094400,
xp 13 11 [1,3,4] 6785673523200,
xp 13 11 [1,2,5] 7736813884800,
xp 13 11 [1,1,6] 5308535232000,
xm 13 11 [5,5] 537644867760000,
xm 13 11 [4,6] 1127051845920000,
xm 13 11 [3,7] 1298656085126400,
xm 13 11 [2,8] 1675185351840000,
xm 13 11 [1,9] 2568988566144000,
xp 13 11 [12] 830502356523840000,
xm 14 11 [1,1,1,1,1] 3603600,
xp 14 11 [1,2,2,2] 31212941760,
xp 14 11 [1,1,2,3] 106624758240,
xp 14 11 [1,1,1,4] 42738696000,
xm 14 11 [3,3,3] 4048212168000,
xm 14 11 [2,3,4] 26213941353600,
xm 14 11 [1,4,4] 16288416144000,
xm 14 11 [2,2,5] 14858450006400,
xm 14 11 [1,3,5] 34226560368000,
xm 14 11 [1,2,6] 40259246227200,
xm 14 11 [1,1,7] 28095280012800,
xp 14 11 [5,6] 6652793347200000,
xp 14 11 [4,7] 7191695294784000,
xp 14 11 [3,8] 8440485397344000,
xp 14 11 [2,9] 10980533884320000,
xp 14 11 [1,10] 16828285009536000,
xm 14 11 [13] 6367184733349440000,
xp 15 11 [1,1,1,1,2] 40540500,
xm 15 11 [2,2,2,2] 19702683000,
xm 15 11 [1,2,2,3] 270265675680,
xm 15 11 [1,1,3,3] 154475521200,
xm 15 11 [1,1,2,4] 327216970080,
xm 15 11 [1,1,1,5] 136107972000,
xp 15 11 [3,3,4] 46385504193600,
xp 15 11 [2,4,4] 49906513800000]
def extC5_1 : PL := [
xp 15 11 [2,3,5] 104683002652800,
xp 15 11 [1,4,5] 129550054233600,
xp 15 11 [2,2,6] 61123657795200,
xp 15 11 [1,3,6] 140654129616000,
xp 15 11 [1,2,7] 168914166220800,
xp 15 11 [1,1,8] 119270799648000,
xm 15 11 [6,6] 15993811033200000,
xm 15 11 [5,7] 33054785539776000,
xm 15 11 [4,8] 36508851707328000,
xm 15 11 [3,9] 43407892592064000,
xm 15 11 [2,10] 56767078368000000,
xm 15 11 [1,11] 86967164059776000,
xp 15 11 [14] 38203108400096640000,
xm 16 11 [1,1,1,2,2] 140540400,
xm 16 11 [1,1,1,1,3] 94594500,
xp 16 11 [2,2,2,3] 194672237760,
xp 16 11 [1,2,3,3] 668224196640,
xp 16 11 [1,2,2,4] 709607939040,
xp 16 11 [1,1,3,4] 812042431200,
xp 16 11 [1,1,2,5] 890178569280,
xp 16 11 [1,1,1,6] 379437458400,
xm 16 11 [3,4,4] 148765472856000,
xm 16 11 [3,3,5] 155778655032000,
xm 16 11 [2,4,5] 334495838476800,
xm 16 11 [1,5,5] 216073210953600,
xm 16 11 [2,3,6] 362001627187200,
xm 16 11 [1,4,6] 446684439801600,
xm 16 11 [2,2,7] 215819978774400,
xm 16 11 [1,3,7] 496208714601600,
xm 16 11 [1,2,8] 604590790003200,
xm 16 11 [1,1,9] 430316715628800,
xp 16 11 [6,7] 131796151533446400,
xp 16 11 [5,8] 139434500132928000,
xp 16 11 [4,9] 156417788663136000,
xp 16 11 [3,10] 187695335763936000,
xp 16 11 [2,11] 246293430679296000,
xp 16 11 [1,12] 377069641351603200,
xm 16 11 [15] 191015542000483200000,
xp 17 11 [1,1,1,1,1,1] 45045,
xp 17 11 [1,1,2,2,2] 214414200,
xp 17 11 [1,1,1,2,3] 540540000,
xp 17 11 [1,1,1,1,4] 204504300,
xm 17 11 [2,2,3,3] 640332332640,
xm 17 11 [1,3,3,3] 487588701600,
xm 17 11 [2,2,2,4] 454373599680,
xm 17 11 [1,2,3,4] 3114107156160,
xm 17 11 [1,1,4,4] 946820674800,
xm 17 11 [1,2,2,5] 1713260989440,
xm 17 11 [1,1,3,5] 1957554799200,
xm 17 11 [1,1,2,6] 2197476721440,
xm 17 11 [1,1,1,7] 952160489280,
xp 17 11 [4,4,4] 139042301112000,
xp 17 11 [3,4,5] 872322624201600,
xp 17 11 [2,5,5] 489020008276800,
xp 17 11 [3,3,6] 470843668152000,
xp 17 11 [2,4,6] 1009779141571200,
xp 17 11 [1,5,6] 1299108841430400,
xp 17 11 [2,3,7] 1117205109820800,
xp 17 11 [1,4,7] 1374844808937600,
xp 17 11 [2,2,8] 676345529059200,
xp 17 11 [1,3,8] 1552618123056000,
xp 17 11 [1,2,9] 1911809028729600,
xp 17 11 [1,1,10] 1367548600017600,
xm 17 11 [7,7] 234372175832995200,
xm 17 11 [6,8] 480295633001184000,
xm 17 11 [5,9] 517013315634816000,
xm 17 11 [4,10] 586702224972864000,
xm 17 11 [3,11] 708666849386496000,
xm 17 11 [2,12] 932070013139865600,
xm 17 11 [1,13] 1425156424788096000,
xm 18 11 [1,1,1,1,1,2] 270270,
xm 18 11 [1,2,2,2,2] 151351200,
xm 18 11 [1,1,2,2,3] 1097296200,
xm 18 11 [1,1,1,3,3] 432432000,
xm 18 11 [1,1,1,2,4] 1037836800,
xm 18 11 [1,1,1,1,5] 402702300,
xp 18 11 [2,3,3,3] 849832663680,
xp 18 11 [2,2,3,4] 2718795119040,
xp 18 11 [1,3,3,4] 3093596906400,
xp 18 11 [1,2,4,4] 3299348052000,
xp 18 11 [2,2,2,5] 1000254134880,
xp 18 11 [1,2,3,5] 6830081818560,
xp 18 11 [1,1,4,5] 4145833692000,
xp 18 11 [1,2,2,6] 3848921556480,
xp 18 11 [1,1,3,6] 4381746969600,
xp 18 11 [1,1,2,7] 5006887966080,
xp 18 11 [1,1,1,8] 2192819428800,
xm 18 11 [4,4,5] 1097125173144000,
xm 18 11 [3,5,5] 1145797902849600,
xm 18 11 [3,4,6] 2363744144361600,
xm 18 11 [2,5,6] 2645315495222400,
xm 18 11 [1,6,6] 1747722360384000,
xm 18 11 [3,3,7] 1303595873236800,
xm 18 11 [2,4,7] 2794021422192000,
xm 18 11 [1,5,7] 3579383404396800,
xm 18 11 [2,3,8] 3141822106051200,
xm 18 11 [1,4,8] 3854604491337600,
xm 18 11 [2,2,9] 1924242498921600,
xm 18 11 [1,3,9] 4406105036361600,
xm 18 11 [1,2,10] 5468959411344000,
xm 18 11 [1,1,11] 3922215537240000,
xp 18 11 [7,8] 1516011440181638400,
xp 18 11 [6,9] 1582187434892064000,
xp 18 11 [5,10] 1725555559631904000,
xp 18 11 [4,11] 1975170420935712000,
xp 18 11 [3,12] 2397145047436339200,
xp 18 11 [2,13] 3158066103768576000,
xp 18 11 [1,14] 4819070816816256000,
xm 12 12 [1,1,1,2] 795674880,
xp 12 12 [2,2,3] 164237673600,
xp 12 12 [1,3,3] 195891696000,
xp 12 12 [1,2,4] 417729312000,
xp 12 12 [1,1,5] 277880803200,
xm 12 12 [4,5] 50345463168000,
xm 12 12 [3,6] 56510213760000,
xm 12 12 [2,7] 70791885964800,
xm 12 12 [1,8] 109081836864000,
xp 12 12 [11] 30200085691776000,
xp 13 12 [1,1,2,2] 11169718560,
xp 13 12 [1,1,1,3] 8670261600,
xm 13 12 [2,3,3] 2230051824000,
xm 13 12 [2,2,4] 2402851651200,
xm 13 12 [1,3,4] 5648426784000,
xm 13 12 [1,2,5] 6342220684800,
xm 13 12 [1,1,6] 4358136182400,
xp 13 12 [5,5] 453109168512000,
xp 13 12 [4,6] 949371591168000,
xp 13 12 [3,7] 1088592208704000,
xp 13 12 [2,8] 1389123800064000,
xp 13 12 [1,9] 2138226618528000,
xm 13 12 [12] 694601970910848000,
xm 14 12 [1,2,2,2] 37517800320,
xm 14 12 [1,1,2,3] 130840950240,
xm 14 12 [1,1,1,4] 54464810400,
xp 14 12 [3,3,3] 5281292016000,
xp 14 12 [2,3,4] 34240830624000,
xp 14 12 [1,4,4] 21585708144000,
xp 14 12 [2,2,5] 19293645571200,
xp 14 12 [1,3,5] 45034852262400,
xp 14 12 [1,2,6] 52412834073600,
xp 14 12 [1,1,7] 36817260480000,
xm 14 12 [5,6] 8832032681472000,
xm 14 12 [4,7] 9527108310720000,
xm 14 12 [3,8] 11106311920704000,
xm 14 12 [2,9] 14342035387680000,
xm 14 12 [1,10] 22082393485152000,
xp 14 12 [13] 8335223650930176000,
xm 15 12 [1,1,1,1,2] 21621600,
xp 15 12 [2,2,2,2] 33509155680,
xp 15 12 [1,2,2,3] 467701153920,
xp 15 12 [1,1,3,3] 271740268800,
xp 15 12 [1,1,2,4] 584366983200,
xp 15 12 [1,1,1,5] 253210557600,
xm 15 12 [3,3,4] 85140239184000,
xm 15 12 [2,4,4] 91982178288000,
xm 15 12 [2,3,5] 192195440236800,
xm 15 12 [1,4,5] 241465704480000,
xm 15 12 [2,2,6] 111673055894400,
xm 15 12 [1,3,6] 259813102348800,
xm 15 12 [1,2,7] 310172576313600,
xm 15 12 [1,1,8] 221280297638400,
xp 15 12 [6,6] 29667862224000000,
xp 15 12 [5,7] 61259640361920000,
xp 15 12 [4,8] 67414801341888000,
xp 15 12 [3,9] 79597461591648000,
xp 15 12 [2,10] 103599918021600000,
xp 15 12 [1,11] 159629024370816000,
xm 15 12 [14] 69460197091084800000,
xp 16 12 [1,1,1,2,2] 129729600,
xp 16 12 [1,1,1,1,3] 135135000,
xm 16 12 [2,2,2,3] 442663341120,
xm 16 12 [1,2,3,3] 1543834131840,
xm 16 12 [1,2,2,4] 1660028610240,
xm 16 12 [1,1,3,4] 1927652126400,
xm 16 12 [1,1,2,5] 2160927568800,
xm 16 12 [1,1,1,6] 960626066400,
xp 16 12 [3,4,4] 359440505424000,
xp 16 12 [3,3,5] 375930694339200,
xp 16 12 [2,4,5] 811401048057600,
xp 16 12 [1,5,5] 531496982016000,
xp 16 12 [2,3,6] 873383256345600,
xp 16 12 [1,4,6] 1094164354483200,
xp 16 12 [2,2,7] 519056432294400,
xp 16 12 [1,3,7] 1205457821568000,
xp 16 12 [1,2,8] 1465892069241600,
xp 16 12 [1,1,9] 1057314661603200,
xm 16 12 [6,7] 319434771591936000,
xm 16 12 [5,8] 337300218807552000,
xm 16 12 [4,9] 376633981852128000,
xm 16 12 [3,10] 449071000009632000,
xm 16 12 [2,11] 587652795265536000,
xm 16 12 [1,12] 906002570753280000,
xp 16 12 [15] 451491281092051200000,
xm 17 12 [1,1,1,1,1,1] 270270,
xm 17 12 [1,1,2,2,2] 259459200,
xm 17 12 [1,1,1,2,3] 951350400,
xm 17 12 [1,1,1,1,4] 513513000,
xp 17 12 [2,2,3,3] 1853394903360,
xp 17 12 [1,3,3,3] 1434225592800,
xp 17 12 [2,2,2,4] 1329105697920,
xp 17 12 [1,2,3,4] 9253179936000,
xp 17 12 [1,1,4,4] 2883240360000,
xp 17 12 [1,2,2,5] 5190468323040,
xp 17 12 [1,1,3,5] 6016642632000,
xp 17 12 [1,1,2,6] 6929493611040,
xp 17 12 [1,1,1,7] 3133333082880,
xm 17 12 [4,4,4] 423041739120000,
xm 17 12 [3,4,5] 2655795830688000,
xm 17 12 [2,5,5] 1497712145529600,
xm 17 12 [3,3,6] 1430345899382400,
xm 17 12 [2,4,6] 3083840202643200,
xm 17 12 [1,5,6] 4030926477177600,
xm 17 12 [2,3,7] 3393514617292800,
xm 17 12 [1,4,7] 4240289813760000,
xm 17 12 [2,2,8] 2051937234547200,
xm 17 12 [1,3,8] 4757886009676800,
xm 17 12 [1,2,9] 5865486199372800,
xm 17 12 [1,1,10] 4262762353449600,
xp 17 12 [7,7] 711454755095884800,
xp 17 12 [6,8] 1456771149497664000,
xp 17 12 [5,9] 1563722636924448000,
xp 17 12 [4,10] 1765492868883744000,
xp 17 12 [3,11] 2120931581985216000,
xp 17 12 [2,12] 2786173619964134400,
xp 17 12 [1,13] 4295962189655136000,
xp 18 12 [1,1,1,1,1,2] 2162160,
xp 18 12 [1,2,2,2,2] 216216000,
xp 18 12 [1,1,2,2,3] 2172970800,
xp 18 12 [1,1,1,3,3] 1081080000,
xp 18 12 [1,1,1,2,4] 2983780800,
xp 18 12 [1,1,1,1,5] 1513512000,
xm 18 12 [2,3,3,3] 3026760216480,
xm 18 12 [2,2,3,4] 9770117797440,
xm 18 12 [1,3,3,4] 11304442749600,
xm 18 12 [1,2,4,4] 12156960816000,
xm 18 12 [2,2,2,5] 3656779045920,
xm 18 12 [1,2,3,5] 25374720571200,
xm 18 12 [1,1,4,5] 15766038288000,
xm 18 12 [1,2,2,6] 14633070772320,
xm 18 12 [1,1,3,6] 16910469576000,
xm 18 12 [1,1,2,7] 19850860149120,
xm 18 12 [1,1,1,8] 9077439571200,
xp 18 12 [4,4,5] 4079462731344000,
xp 18 12 [3,5,5] 4268167407504000,
xp 18 12 [3,4,6] 8791667575891200,
xp 18 12 [2,5,6] 9906839822880000,
xp 18 12 [1,6,6] 6649289091244800,
xp 18 12 [3,3,7] 4836322082592000,
xp 18 12 [2,4,7] 10418380759987200,
xp 18 12 [1,5,7] 13579807566124800,
xp 18 12 [2,3,8] 11662101548697600,
xp 18 12 [1,4,8] 14531836538419200,
xp 18 12 [2,2,9] 7147797133276800,
xp 18 12 [1,3,9] 16540402573094400,
xp 18 12 [1,2,10] 20604000671654400,
xp 18 12 [1,1,11] 15047060239411200,
xm 18 12 [7,8] 5591616469350912000,
xm 18 12 [6,9] 5826465811149984000,
xm 18 12 [5,10] 6332217326154720000,
xm 18 12 [4,11] 7211242177723584000,
xm 18 12 [3,12] 8713405927017792000,
xm 18 12 [2,13] 11479268286341856000,
xm 18 12 [1,14] 17689700193957792000,
xm 13 13 [1,1,2,2] 3094050960,
xm 13 13 [1,1,1,3] 2486484000,
xp 13 13 [2,3,3] 686084256000,
xp 13 13 [2,2,4] 735177643200,
xp 13 13 [1,3,4] 1761727968000,
xp 13 13 [1,2,5] 1954506153600,
xp 13 13 [1,1,6] 1348539192000,
xm 13 13 [5,5] 144327128400000,
xm 13 13 [4,6] 301691373984000,
xm 13 13 [3,7] 344650033728000,
xm 13 13 [2,8] 435315456576000,
xm 13 13 [1,9] 674324082432000,
xp 13 13 [12] 221009718017088000,
xp 14 13 [1,1,1,1,1] 2702700,
xp 14 13 [1,2,2,2] 22193028000,
xp 14 13 [1,1,2,3] 79153588800,
xp 14 13 [1,1,1,4] 34291857600,
xm 14 13 [3,3,3] 3430421280000,
xm 14 13 [2,3,4] 22242139920000,
xm 14 13 [1,4,4] 14231553336000,
xm 14 13 [2,2,5] 12480117249600,
xm 14 13 [1,3,5] 29570565024000,
xm 14 13 [1,2,6] 34145868556800,
xm 14 13 [1,1,7] 24172386638400,
xp 14 13 [5,6] 5890419190656000,
xp 14 13 [4,7] 6334538097888000,
xp 14 13 [3,8] 7346327788800000,
xp 14 13 [2,9] 9423335009088000,
xp 14 13 [1,10] 14609781714528000,
xm 14 13 [13] 5525242950427200000,
xm 15 13 [1,1,1,1,2] 29729700,
xm 15 13 [2,2,2,2] 31475180880,
xm 15 13 [1,2,2,3] 447676463520,
xm 15 13 [1,1,3,3] 264486222000,
xm 15 13 [1,1,2,4] 577383206400,
xm 15 13 [1,1,1,5] 260324064000,
xp 15 13 [3,3,4] 87266970648000,
xp 15 13 [2,4,4] 94569202728000,
xp 15 13 [2,3,5] 197140473129600,
xp 15 13 [1,4,5] 251422451280000,
xp 15 13 [2,2,6] 114273615456000,
xp 15 13 [1,3,6] 269100703872000,
xp 15 13 [1,2,7] 319964825980800,
xp 15 13 [1,1,8] 230685823368000,
xm 15 13 [6,6] 31039694365680000,
xm 15 13 [5,7] 63999272649312000,
xm 15 13 [4,8] 70171900422624000,
xm 15 13 [3,9] 82405762350912000,
xm 15 13 [2,10] 106837361703072000,
xm 15 13 [1,11] 165871682776800000,
xp 15 13 [14] 71828158355553600000,
xp 16 13 [1,1,1,2,2] 109189080,
xm 16 13 [1,1,1,1,3] 35135100,
xp 16 13 [2,2,2,3] 592549214400,
xp 16 13 [1,2,3,3] 2100034965600,
xp 16 13 [1,2,2,4] 2286447134400,
xp 16 13 [1,1,3,4] 2692448272800,
xp 16 13 [1,1,2,5] 3083802321600,
xp 16 13 [1,1,1,6] 1424690467200,
xm 16 13 [3,4,4] 515954294856000,
xm 16 13 [3,3,5] 539242487784000,
xm 16 13 [2,4,5] 1169142614640000,
xm 16 13 [1,5,5] 776608736904000,
xm 16 13 [2,3,6] 1254661404796800,
xm 16 13 [1,4,6] 1595242080432000,
xm 16 13 [2,2,7] 745215600729600,
xm 16 13 [1,3,7] 1748817018748800,
xm 16 13 [1,2,8] 2124980966908800,
xm 16 13 [1,1,9] 1552468285368000,
xp 16 13 [6,7] 464782123757952000,
xp 16 13 [5,8] 489629407883616000,
xp 16 13 [4,9] 544524285745440000,
xp 16 13 [3,10] 646048916761248000,
xp 16 13 [2,11] 843935511523104000,
xp 16 13 [1,12] 1312102207896480000,
xm 16 13 [15] 646453425199982400000,
xp 17 13 [1,1,1,1,1,1] 675675,
xm 17 13 [1,1,2,2,2] 241080840,
xp 17 13 [1,1,1,2,3] 324324000,
xp 17 13 [1,1,1,1,4] 594594000,
xm 17 13 [2,2,3,3] 3284039032560,
xm 17 13 [1,3,3,3] 2580970392000,
xm 17 13 [2,2,2,4] 2381275765440,
xm 17 13 [1,2,3,4] 16822593216000,
xm 17 13 [1,1,4,4] 5365583823600,
xm 17 13 [1,2,2,5] 9616920112800,
xm 17 13 [1,1,3,5] 11292961680000,
xm 17 13 [1,1,2,6] 13320959652000,
xm 17 13 [1,1,1,7] 6253809962400,
xp 17 13 [4,4,4] 794907313200000,
xp 17 13 [3,4,5] 4993265060784000,
xp 17 13 [2,5,5] 2831704627752000,
xp 17 13 [3,3,6] 2686755151080000,
xp 17 13 [2,4,6] 5821830113299200,
xp 17 13 [1,5,6] 7724841140016000,
xp 17 13 [2,3,7] 6388587081676800,
xp 17 13 [1,4,7] 8099880851462400,
xp 17 13 [2,2,8] 3867053862672000,
xp 17 13 [1,3,8] 9053749648944000,
xp 17 13 [1,2,9] 11182223974521600,
xp 17 13 [1,1,10] 8247737049552000,
xm 17 13 [7,7] 1348193475588960000,
xm 17 13 [6,8] 2757600822936960000,
xm 17 13 [5,9] 2951520758746560000,
xm 17 13 [4,10] 3318580633848480000,
xm 17 13 [3,11] 3970212051405600000,
xm 17 13 [2,12] 5214907654276320000,
xm 17 13 [1,13] 8116273029664800000,
xm 18 13 [1,1,1,1,1,2] 7297290,
xp 18 13 [1,2,2,2,2] 303242940,
xm 18 13 [1,1,2,2,3] 277837560,
xm 18 13 [1,1,1,3,3] 1059458400,
xm 18 13 [1,1,1,2,4] 3989185200,
xm 18 13 [1,1,1,1,5] 2994591600,
xp 18 13 [2,3,3,3] 6773849596800,
xp 18 13 [2,2,3,4] 22073389509600,
xp 18 13 [1,3,3,4] 25931946268800,
xp 18 13 [1,2,4,4] 28125578052000,
xp 18 13 [2,2,2,5] 8406020319840,
xp 18 13 [1,2,3,5] 59164258982400,
xp 18 13 [1,1,4,5] 37563681355200,
xp 18 13 [1,2,2,6] 34878672148320,
xp 18 13 [1,1,3,6] 40830251061600,
xp 18 13 [1,1,2,7] 49118766016320,
xp 18 13 [1,1,1,8] 23309749663200,
xm 18 13 [4,4,5] 9616498059168000,
xm 18 13 [3,5,5] 10076773274568000,
xm 18 13 [3,4,6] 20740649529600000,
xm 18 13 [2,5,6] 23525208215308800,
xm 18 13 [1,6,6] 16029050133096000,
xm 18 13 [3,3,7] 11401111928606400,
xm 18 13 [2,4,7] 24684515250595200,
xm 18 13 [1,5,7] 32689791310176000,
xm 18 13 [2,3,8] 27573713572204800,
xm 18 13 [1,4,8] 34860979625472000,
xm 18 13 [2,2,9] 16943191964899200,
xm 18 13 [1,3,9] 39584462901984000]
def extC5_2 : PL := [
xm 18 13 [1,2,10] 49504713911452800,
xm 18 13 [1,1,11] 36756683243280000,
xp 18 13 [7,8] 13219643392667712000,
xp 18 13 [6,9] 13750038241299360000,
xp 18 13 [5,10] 14895764338815360000,
xp 18 13 [4,11] 16895545969734432000,
xp 18 13 [3,12] 20349464883812064000,
xp 18 13 [2,13] 26839868581509984000,
xp 18 13 [1,14] 41791885249802688000,
xm 14 14 [1,1,1,1,1] 1261260,
xm 14 14 [1,2,2,2] 5185477440,
xm 14 14 [1,1,2,3] 18894189600,
xm 14 14 [1,1,1,4] 8511703200,
xp 14 14 [3,3,3] 887721120000,
xp 14 14 [2,3,4] 5741832096000,
xp 14 14 [1,4,4] 3721726008000,
xp 14 14 [2,2,5] 3210340573440,
xp 14 14 [1,3,5] 7726954435200,
xp 14 14 [1,2,6] 8868678698880,
xp 14 14 [1,1,7] 6322294218240,
xm 14 14 [5,6] 1570778450841600,
xm 14 14 [4,7] 1682976911616000,
xm 14 14 [3,8] 1945663784064000,
xm 14 14 [2,9] 2478829088736000,
xm 14 14 [1,10] 3871973468563200,
xp 14 14 [13] 1473398120113920000,
xp 15 14 [1,1,1,1,2] 40540500,
xp 15 14 [2,2,2,2] 15556432320,
xp 15 14 [1,2,2,3] 225201319200,
xp 15 14 [1,1,3,3] 135243108000,
xp 15 14 [1,1,2,4] 299026728000,
xp 15 14 [1,1,1,5] 139848508800,
xm 15 14 [3,3,4] 47351304000000,
xm 15 14 [2,4,4] 51358002696000,
xm 15 14 [2,3,5] 106960757904000,
xm 15 14 [1,4,5] 138242975270400,
xm 15 14 [2,2,6] 61919782404480,
xm 15 14 [1,3,6] 147680025292800,
xm 15 14 [1,2,7] 174998432568960,
xm 15 14 [1,1,8] 127336348339200,
xp 15 14 [6,6] 17278562959257600,
xp 15 14 [5,7] 35566912065484800,
xp 15 14 [4,8] 38864300162688000,
xp 15 14 [3,9] 45470429772768000,
xp 15 14 [2,10] 58713673091673600,
xp 15 14 [1,11] 91881472831948800,
xm 15 14 [14] 39781749243075840000,
xm 16 14 [1,1,1,2,2] 316756440,
xm 16 14 [1,1,1,1,3] 108108000,
xm 16 14 [2,2,2,3] 468561075840,
xm 16 14 [1,2,3,3] 1686095611200,
xm 16 14 [1,2,2,4] 1855744862400,
xm 16 14 [1,1,3,4] 2214891993600,
xm 16 14 [1,1,2,5] 2582981200800,
xm 16 14 [1,1,1,6] 1234960927200,
xp 16 14 [3,4,4] 439916965488000,
xp 16 14 [3,3,5] 459571259347200,
xp 16 14 [2,4,5] 999219411590400,
xp 16 14 [1,5,5] 672283565553600,
xp 16 14 [2,3,6] 1071091789447680,
xp 16 14 [1,4,6] 1380137430672000,
xp 16 14 [2,2,7] 636433439241600,
xp 16 14 [1,3,7] 1509591588785280,
xp 16 14 [1,2,8] 1832641644113280,
xp 16 14 [1,1,9] 1353783511080000,
xm 16 14 [6,7] 404026657248614400,
xm 16 14 [5,8] 424621308048537600,
xm 16 14 [4,9] 470673656028576000,
xm 16 14 [3,10] 556407163203091200,
xm 16 14 [2,11] 725481885371443200,
xm 16 14 [1,12] 1137536561056896000,
xp 16 14 [15] 556944489403061760000,
xm 17 14 [1,1,1,1,1,1] 900900,
xp 17 14 [1,1,2,2,2] 1054053000,
xp 17 14 [1,1,1,2,3] 1351350000,
xm 17 14 [1,1,1,1,4] 154954800,
xp 17 14 [2,2,3,3] 3660765451200,
xp 17 14 [1,3,3,3] 2918591676000,
xp 17 14 [2,2,2,4] 2680908516000,
xp 17 14 [1,2,3,4] 19199702808000,
xp 17 14 [1,1,4,4] 6256966716000,
xp 17 14 [1,2,2,5] 11155707763200,
xp 17 14 [1,1,3,5] 13257911066400,
xp 17 14 [1,1,2,6] 15956351611200,
xp 17 14 [1,1,1,7] 7739711179200,
xm 17 14 [4,4,4] 944597974320000,
xm 17 14 [3,4,5] 5935067448710400,
xm 17 14 [2,5,5] 3379578155553600,
xm 17 14 [3,3,6] 3192841088236800,
xm 17 14 [2,4,6] 6945149638627200,
xm 17 14 [1,5,6] 9338996239372800,
xm 17 14 [2,3,7] 7613968723320960,
xm 17 14 [1,4,7] 9782163450259200,
xm 17 14 [2,2,8] 4616899876068480,
xm 17 14 [1,3,8] 10912524698275200,
xm 17 14 [1,2,9] 13495204148025600,
xm 17 14 [1,1,10] 10080887000184000,
xp 17 14 [7,7] 1625419101238732800,
xp 17 14 [6,8] 3321037039435315200,
xp 17 14 [5,9] 3545214238998432000,
xp 17 14 [4,10] 3973416237606816000,
xp 17 14 [3,11] 4738674528088300800,
xp 17 14 [2,12] 6223230991551974400,
xp 17 14 [1,13] 9774593290650988800,
xp 18 14 [1,1,1,1,1,2] 13513500,
xm 18 14 [1,2,2,2,2] 1587565980,
xm 18 14 [1,1,2,2,3] 6782695920,
xm 18 14 [1,1,1,3,3] 843242400,
xp 18 14 [1,1,1,2,4] 637837200,
xp 18 14 [1,1,1,1,5] 3045942900,
xm 18 14 [2,3,3,3] 9918003981600,
xm 18 14 [2,2,3,4] 32604069326400,
xm 18 14 [1,3,3,4] 38836955757600,
xm 18 14 [1,2,4,4] 42459942096000,
xm 18 14 [2,2,2,5] 12608299360800,
xm 18 14 [1,2,3,5] 89889028257600,
xm 18 14 [1,1,4,5] 58216158000000,
xm 18 14 [1,2,2,6] 53999362216800,
xm 18 14 [1,1,3,6] 63941903625600,
xm 18 14 [1,1,2,7] 78531294441600,
xm 18 14 [1,1,1,8] 38468329099200,
xp 18 14 [4,4,5] 14904323041608000,
xp 18 14 [3,5,5] 15632185362393600,
xp 18 14 [3,4,6] 32168243550643200,
xp 18 14 [2,5,6] 36676905766300800,
xp 18 14 [1,6,6] 25333376655787200,
xp 18 14 [3,3,7] 17686879921751040,
xp 18 14 [2,4,7] 38458660196436480,
xp 18 14 [1,5,7] 51645227662828800,
xp 18 14 [2,3,8] 42936527199646080,
xp 18 14 [1,4,8] 55003839828537600,
xp 18 14 [2,2,9] 26460170391695040,
xp 18 14 [1,3,9] 62375777018755200,
xp 18 14 [1,2,10] 78249855674390400,
xp 18 14 [1,1,11] 58929904053820800,
xm 18 14 [7,8] 20681280478136678400,
xm 18 14 [6,9] 21474096618335961600,
xm 18 14 [5,10] 23200360076589696000,
xm 18 14 [4,11] 26235694158139065600,
xm 18 14 [3,12] 31520620391131872000,
xm 18 14 [2,13] 41621758100405683200,
xm 18 14 [1,14] 65454659058832243200,
xm 15 15 [1,1,1,1,2] 13513500,
xm 15 15 [2,2,2,2] 3173556672,
xm 15 15 [1,2,2,3] 46571073120,
xm 15 15 [1,1,3,3] 28420048800,
xm 15 15 [1,1,2,4] 63442098720,
xm 15 15 [1,1,1,5] 30681050400,
xp 15 15 [3,3,4] 10623321072000,
xp 15 15 [2,4,4] 11505470558400,
xp 15 15 [2,3,5] 23965892496000,
xp 15 15 [1,4,5] 31324745088000,
xp 15 15 [2,2,6] 13858079114880,
xp 15 15 [1,3,6] 33484247596800,
xp 15 15 [1,2,7] 39546719372160,
xp 15 15 [1,1,8] 28997419651200,
xm 15 15 [6,6] 3986198864524800,
xm 15 15 [5,7] 8193233752704000,
xm 15 15 [4,8] 8924550643008000,
xm 15 15 [3,9] 10418412932928000,
xm 15 15 [2,10] 13390917117177600,
xm 15 15 [1,11] 21115421219692800,
xp 15 15 [14] 9180403671479040000,
xp 16 15 [1,1,1,2,2] 235675440,
xp 16 15 [1,1,1,1,3] 110810700,
xp 16 15 [2,2,2,3] 203184352800,
xp 16 15 [1,2,3,3] 740941344000,
xp 16 15 [1,2,2,4] 822654312480,
xp 16 15 [1,1,3,4] 994788194400,
xp 16 15 [1,1,2,5] 1176362066880,
xp 16 15 [1,1,1,6] 580085906400,
xm 16 15 [3,4,4] 206253847800000,
xm 16 15 [3,3,5] 215439352128000,
xm 16 15 [2,4,5] 468833952787200,
xm 16 15 [1,5,5] 319036881945600,
xm 16 15 [2,3,6] 502658351395200,
xm 16 15 [1,4,6] 655217506944000,
xm 16 15 [2,2,7] 298795186609920,
xm 16 15 [1,3,7] 716476083523200,
xm 16 15 [1,2,8] 868576774665600,
xm 16 15 [1,1,9] 647546076777600,
xp 16 15 [6,7] 193766741757388800,
xp 16 15 [5,8] 203219462077632000,
xp 16 15 [4,9] 224646251461632000,
xp 16 15 [3,10] 264904431311520000,
xp 16 15 [2,11] 344555523119808000,
xp 16 15 [1,12] 544590612857491200,
xm 16 15 [15] 266231706472892160000,
xp 17 15 [1,1,1,1,1,1] 675675,
xm 17 15 [1,1,2,2,2] 1239998760,
xm 17 15 [1,1,1,2,3] 2172970800,
xm 17 15 [1,1,1,1,4] 316215900,
xm 17 15 [2,2,3,3] 2513082892320,
xm 17 15 [1,3,3,3] 2028869013600,
xm 17 15 [2,2,2,4] 1855389032640,
xm 17 15 [1,2,3,4] 13453734191040,
xm 17 15 [1,1,4,4] 4470723457200,
xm 17 15 [1,2,2,5] 7919304513120,
xm 17 15 [1,1,3,5] 9518649940800,
xm 17 15 [1,1,2,6] 11641804574400,
xm 17 15 [1,1,1,7] 5812513106400,
xp 17 15 [4,4,4] 693124790904000,
xp 17 15 [3,4,5] 4355179880688000,
xp 17 15 [2,5,5] 2485870398648000,
xp 17 15 [3,3,6] 2343530998972800,
xp 17 15 [2,4,6] 5109749811129600,
xp 17 15 [1,5,6] 6951134300947200,
xp 17 15 [2,3,7] 5603113220664960,
xp 17 15 [1,4,7] 7283153884406400,
xp 17 15 [2,2,8] 3403055814238080,
xp 17 15 [1,3,8] 8119705869475200,
xp 17 15 [1,2,9] 10045357824902400,
xp 17 15 [1,1,10] 7583536935374400,
xm 17 15 [7,7] 1214421035783155200,
xm 17 15 [6,8] 2478976541475033600,
xm 17 15 [5,9] 2640359860826688000,
xm 17 15 [4,10] 2951968925217312000,
xm 17 15 [3,11] 3512237281878124800,
xm 17 15 [2,12] 4609201843031385600,
xm 17 15 [1,13] 7301254376749132800,
xm 18 15 [1,1,1,1,1,2] 14864850,
xp 18 15 [1,2,2,2,2] 2553510960,
xp 18 15 [1,1,2,2,3] 13512418920,
xp 18 15 [1,1,1,3,3] 3400768800,
xp 18 15 [1,1,1,2,4] 5221616400,
xm 18 15 [1,1,1,1,5] 1056755700,
xp 18 15 [2,3,3,3] 9525256884000,
xp 18 15 [2,2,3,4] 31550036712480,
xp 18 15 [1,3,3,4] 38043455392800,
xp 18 15 [1,2,4,4] 41893759908000,
xp 18 15 [2,2,2,5] 12355265482560,
xp 18 15 [1,2,3,5] 89119642772160,
xp 18 15 [1,1,4,5] 58767854745600,
xp 18 15 [1,2,2,6] 54358946722080,
xp 18 15 [1,1,3,6] 65041361985600,
xp 18 15 [1,1,2,7] 81252459288000,
xp 18 15 [1,1,1,8] 40914964490400,
xm 18 15 [4,4,5] 15188061136248000,
xm 18 15 [3,5,5] 15936550994145600,
xm 18 15 [3,4,6] 32799694335408000,
xm 18 15 [2,5,6] 37531905300489600,
xm 18 15 [1,6,6] 26240741932204800,
xm 18 15 [3,3,7] 18047088374515200,
xm 18 15 [2,4,7] 39367720545753600,
xm 18 15 [1,5,7] 53505380181052800,
xm 18 15 [2,3,8] 43967478367612800,
xm 18 15 [1,4,8] 56988395768304000,
xm 18 15 [2,2,9] 27166274930995200,
xm 18 15 [1,3,9] 64592914261075200,
xm 18 15 [1,2,10] 81192576018153600,
xm 18 15 [1,1,11] 61874767919764800,
xp 18 15 [7,8] 21358463638012300800,
xp 18 15 [6,9] 22144937448553920000,
xp 18 15 [5,10] 23871782966679648000,
xp 18 15 [4,11] 26933671877976864000,
xp 18 15 [3,12] 32295862524256531200,
xp 18 15 [2,13] 42672281104541088000,
xp 18 15 [1,14] 67719644366774400000,
xm 16 16 [1,1,1,2,2] 60540480,
xm 16 16 [1,1,1,1,3] 32432400,
xm 16 16 [2,2,2,3] 37343592000,
xm 16 16 [1,2,3,3] 137606040000,
xm 16 16 [1,2,2,4] 153833359680,
xm 16 16 [1,1,3,4] 188410622400,
xm 16 16 [1,1,2,5] 225028964160,
xm 16 16 [1,1,1,6] 114162048000,
xp 16 16 [3,4,4] 41016175200000,
xp 16 16 [3,3,5] 42857470656000,
xp 16 16 [2,4,5] 93171798720000,
xp 16 16 [1,5,5] 64040380185600,
xp 16 16 [2,3,6] 100005954048000,
xp 16 16 [1,4,6] 131624689996800,
xp 16 16 [2,2,7] 59438470291200,
xp 16 16 [1,3,7] 144093261312000,
xp 16 16 [1,2,8] 174348798624000,
xp 16 16 [1,1,9] 130965663628800,
xm 16 16 [6,7] 39493858192588800,
xm 16 16 [5,8] 41353146971136000,
xm 16 16 [4,9] 45602886288960000,
xm 16 16 [3,10] 53695266768000000,
xm 16 16 [2,11] 69617080653120000,
xm 16 16 [1,12] 110840247905587200,
xp 16 16 [15] 54333001320998400000,
xm 17 16 [1,1,1,1,1,1] 270270,
xp 17 16 [1,1,2,2,2] 665945280,
xp 17 16 [1,1,1,2,3] 1329728400,
xp 17 16 [1,1,1,1,4] 302702400,
xp 17 16 [2,2,3,3] 972972000000,
xp 17 16 [1,3,3,3] 793667160000,
xp 17 16 [2,2,2,4] 722905223040,
xp 17 16 [1,2,3,4] 5298416323200,
xp 17 16 [1,1,4,4] 1791745956000,
xp 17 16 [1,2,2,5] 3149860633920,
xp 17 16 [1,1,3,5] 3827152929600,
xp 17 16 [1,1,2,6] 4739437422720,
xp 17 16 [1,1,1,7] 2428987841280,
xm 17 16 [4,4,4] 287113226400000,
xm 17 16 [3,4,5] 1804154736384000,
xm 17 16 [2,5,5] 1030667329036800,
xm 17 16 [3,3,6] 971461947456000,
xm 17 16 [2,4,6] 2119805534246400,
xm 17 16 [1,5,6] 2912844654720000,
xm 17 16 [2,3,7] 2326741889472000,
xm 17 16 [1,4,7] 3054810869510400,
xm 17 16 [2,2,8] 1414623450240000,
xm 17 16 [1,3,8] 3407137782048000,
xm 17 16 [1,2,9] 4213321365052800,
xm 17 16 [1,1,10] 3208486737456000,
xp 17 16 [7,7] 513420156503654400,
xp 17 16 [6,8] 1047292489571328000,
xp 17 16 [5,9] 1113429475109952000,
xp 17 16 [4,10] 1242321706866240000,
xp 17 16 [3,11] 1475686005393600000,
xp 17 16 [2,12] 1933713598738521600,
xp 17 16 [1,13] 3086734366235520000,
xp 18 16 [1,1,1,1,1,2] 9729720,
xm 18 16 [1,2,2,2,2] 2118916800,
xm 18 16 [1,1,2,2,3] 12387014640,
xm 18 16 [1,1,1,3,3] 3759069600,
xm 18 16 [1,1,1,2,4] 7016209200,
xm 18 16 [1,1,1,1,5] 745945200,
xm 18 16 [2,3,3,3] 5796133200000,
xm 18 16 [2,2,3,4] 19317823462080,
xm 18 16 [1,3,3,4] 23537323180800,
xm 18 16 [1,2,4,4] 26084370312000,
xm 18 16 [2,2,2,5] 7639568576640,
xm 18 16 [1,2,3,5] 55681656750720,
xm 18 16 [1,1,4,5] 37316243764800,
xm 18 16 [1,2,2,6] 34370482386240,
xm 18 16 [1,1,3,6] 41524109827200,
xm 18 16 [1,1,2,7] 52591506327360,
xm 18 16 [1,1,1,8] 27140599886400,
xp 18 16 [4,4,5] 9814084023744000,
xp 18 16 [3,5,5] 10299301771449600,
xp 18 16 [3,4,6] 21206001021004800,
xp 18 16 [2,5,6] 24316771531852800,
xp 18 16 [1,6,6] 17184671939635200,
xp 18 16 [3,3,7] 11679501401568000,
xp 18 16 [2,4,7] 25527393110419200,
xp 18 16 [1,5,7] 35054706912825600,
xp 18 16 [2,3,8] 28535828761440000,
xp 18 16 [1,4,8] 37366391347084800,
xp 18 16 [2,2,9] 17666693944099200,
xp 18 16 [1,3,9] 42358329014601600,
xp 18 16 [1,2,10] 53294366683958400,
xp 18 16 [1,1,11] 41013067311216000,
xm 18 16 [7,8] 14024551143175372800,
xm 18 16 [6,9] 14524431349716288000,
xm 18 16 [5,10] 15628592511499968000,
xm 18 16 [4,11] 17602008819595200000,
xm 18 16 [3,12] 21074612385950323200,
xm 18 16 [2,13] 27843061021776000000,
xm 18 16 [1,14] 44547741121403520000,
xp 17 17 [1,1,1,1,1,1] 45045,
xm 17 17 [1,1,2,2,2] 139819680,
xm 17 17 [1,1,1,2,3] 302702400,
xm 17 17 [1,1,1,1,4] 81981900,
xm 17 17 [2,2,3,3] 162833814000,
xm 17 17 [1,3,3,3] 133899480000,
xm 17 17 [2,2,2,4] 121599878400,
xm 17 17 [1,2,3,4] 898809912000,
xm 17 17 [1,1,4,4] 308748039600,
xm 17 17 [1,2,2,5] 538248110400,
xm 17 17 [1,1,3,5] 660864204000,
xm 17 17 [1,1,2,6] 826057552320,
xm 17 17 [1,1,1,7] 433688935680,
xp 17 17 [4,4,4] 51406279848000,
xp 17 17 [3,4,5] 323122005360000,
xp 17 17 [2,5,5] 184517082691200,
xp 17 17 [3,3,6] 174171846024000,
xp 17 17 [2,4,6] 379773424800000,
xp 17 17 [1,5,6] 526424255280000,
xp 17 17 [2,3,7] 417444166339200,
xp 17 17 [1,4,7] 552667987872000,
xp 17 17 [2,2,8] 253874470449600,
xp 17 17 [1,3,8] 617188572000000,
xp 17 17 [1,2,9] 762363778176000,
xp 17 17 [1,1,10] 584695761249600,
xm 17 17 [7,7] 93981571402118400,
xm 17 17 [6,8] 191612007306720000,
xm 17 17 [5,9] 203422641982560000,
xm 17 17 [4,10] 226565172785952000,
xm 17 17 [3,11] 268861718597472000,
xm 17 17 [2,12] 351510694370035200,
xm 17 17 [1,13] 564956814502080000,
xm 18 17 [1,1,1,1,1,2] 3513510,
xp 18 17 [1,2,2,2,2] 916755840,
xp 18 17 [1,1,2,2,3] 5729724000,
xp 18 17 [1,1,1,3,3] 1926639000,
xp 18 17 [1,1,1,2,4] 3837834000,
xp 18 17 [1,1,1,1,5] 802701900,
xp 18 17 [2,3,3,3] 2030036580000,
xp 18 17 [2,2,3,4] 6800101308000,
xp 18 17 [1,3,3,4] 8356011300000,
xp 18 17 [1,2,4,4] 9310414932000,
xp 18 17 [2,2,2,5] 2709143236800,
xp 18 17 [1,2,3,5] 19922279832000,
xp 18 17 [1,1,4,5] 13544831664000,
xp 18 17 [1,2,2,6] 12410322724800,
xp 18 17 [1,1,3,6] 15130947031200]
def extC5_3 : PL := [
xp 18 17 [1,1,2,7] 19373550356160,
xp 18 17 [1,1,1,8] 10223189776800,
xm 18 17 [4,4,5] 3649823593416000,
xm 18 17 [3,5,5] 3830683461696000,
xm 18 17 [3,4,6] 7891615027296000,
xm 18 17 [2,5,6] 9056609408246400,
xm 18 17 [1,6,6] 6460953026774400,
xm 18 17 [3,3,7] 4351454830008000,
xm 18 17 [2,4,7] 9517167650390400,
xm 18 17 [1,5,7] 13185436328064000,
xm 18 17 [2,3,8] 10651972915584000,
xm 18 17 [1,4,8] 14070439983600000,
xm 18 17 [2,2,9] 6602957332171200,
xm 18 17 [1,3,9] 15961715930160000,
xm 18 17 [1,2,10] 20083861516118400,
xm 18 17 [1,1,11] 15580205435995200,
xp 18 17 [7,8] 5310403237050912000,
xp 18 17 [6,9] 5495053186022400000,
xp 18 17 [5,10] 5904116752742208000,
xp 18 17 [4,11] 6639900658687296000,
xp 18 17 [3,12] 7941372999592032000,
xp 18 17 [2,13] 10482637802757120000,
xp 18 17 [1,14] 16893191790034560000,
xp 18 18 [1,1,1,1,1,2] 540540,
xm 18 18 [1,2,2,2,2] 164324160,
xm 18 18 [1,1,2,2,3] 1081080000,
xm 18 18 [1,1,1,3,3] 389961000,
xm 18 18 [1,1,1,2,4] 799999200,
xm 18 18 [1,1,1,1,5] 210810600,
xm 18 18 [2,3,3,3] 312046020000,
xm 18 18 [2,2,3,4] 1049642193600,
xm 18 18 [1,3,3,4] 1298288628000,
xm 18 18 [1,2,4,4] 1453017384000,
xm 18 18 [2,2,2,5] 420479579520,
xm 18 18 [1,2,3,5] 3113993937600,
xm 18 18 [1,1,4,5] 2144453875200,
xm 18 18 [1,2,2,6] 1953364533120,
xm 18 18 [1,1,3,6] 2402592192000,
xm 18 18 [1,1,2,7] 3102176357280,
xm 18 18 [1,1,1,8] 1671025356000,
xp 18 18 [4,4,5] 595436809968000,
xp 18 18 [3,5,5] 625098067776000,
xp 18 18 [3,4,6] 1288531468224000,
xp 18 18 [2,5,6] 1478358564883200,
xp 18 18 [1,6,6] 1063379959488000,
xp 18 18 [3,3,7] 711432771192000,
xp 18 18 [2,4,7] 1555084023292800,
xp 18 18 [1,5,7] 2170953504720000,
xp 18 18 [2,3,8] 1743076002096000,
xp 18 18 [1,4,8] 2319283734768000,
xp 18 18 [2,2,9] 1081007363779200,
xp 18 18 [1,3,9] 2634313164912000,
xp 18 18 [1,2,10] 3312417308428800,
xp 18 18 [1,1,11] 2586651251184000,
xm 18 18 [7,8] 883395916603200000,
xm 18 18 [6,9] 913552592176224000,
xm 18 18 [5,10] 980424210493728000,
xm 18 18 [4,11] 1101159185109984000,
xm 18 18 [3,12] 1316170118206944000,
xm 18 18 [2,13] 1734481028760480000,
xm 18 18 [1,14] 2812929809770080000]
/-- row 5 -/
def extC5 : PL := extC5_0 ++ extC5_1 ++ extC5_2 ++ extC5_3
def extC6_0 : PL := [
xp 11 11 [1,1,1,1] 23423400,
xm 11 11 [2,2,2] 2338839360,
xm 11 11 [1,2,3] 18273340800,
xm 11 11 [1,1,4] 12929716800,
xp 11 11 [4,4] 759783024000,
xp 11 11 [3,5] 1642376736000,
xp 11 11 [2,6] 2037792556800,
xp 11 11 [1,7] 3413445235200,
xm 11 11 [10] 719049659328000,
xm 12 11 [1,1,1,2] 761080320,
xp 12 11 [2,2,3] 89902612800,
xp 12 11 [1,3,3] 111104136000,
xp 12 11 [1,2,4] 248302454400,
xp 12 11 [1,1,5] 184086302400,
xm 12 11 [4,5] 25172731584000,
xm 12 11 [3,6] 28255106880000,
xm 12 11 [2,7] 36731638944000,
xm 12 11 [1,8] 61219398240000,
xp 12 11 [11] 15100042845888000,
xp 13 11 [1,1,2,2] 4994589600,
xp 13 11 [1,1,1,3] 3999996000,
xm 13 11 [2,3,3] 578890540800,
xm 13 11 [2,2,4] 648166147200,
xm 13 11 [1,3,4] 1559201529600,
xm 13 11 [1,2,5] 1866030566400,
xm 13 11 [1,1,6] 1416647232000,
xp 13 11 [5,5] 107528973552000,
xp 13 11 [4,6] 225410369184000,
xp 13 11 [3,7] 261334052179200,
xp 13 11 [2,8] 349061877964800,
xp 13 11 [1,9] 579914663328000,
xm 13 11 [12] 166100471304768000,
xp 14 11 [1,1,1,1,1] 12612600,
xm 14 11 [1,2,2,2] 10469178720,
xm 14 11 [1,1,2,3] 36985908960,
xm 14 11 [1,1,1,4] 16158542400,
xp 14 11 [3,3,3] 860292576000,
xp 14 11 [2,3,4] 5742351014400,
xp 14 11 [1,4,4] 3786590808000,
xp 14 11 [2,2,5] 3416299286400,
xp 14 11 [1,3,5] 8100056764800,
xp 14 11 [1,2,6] 10111903401600,
xp 14 11 [1,1,7] 7771581417600,
xm 14 11 [5,6] 1330558669440000,
xm 14 11 [4,7] 1441010450880000,
xm 14 11 [3,8] 1714143150720000,
xm 14 11 [2,9] 2326337133120000,
xm 14 11 [1,10] 3853853875872000,
xp 14 11 [13] 1273436946669888000,
xm 15 11 [1,1,1,1,2] 121621500,
xp 15 11 [2,2,2,2] 6587020440,
xp 15 11 [1,2,2,3] 92497204800,
xp 15 11 [1,1,3,3] 53805351600,
xp 15 11 [1,1,2,4] 118598800320,
xp 15 11 [1,1,1,5] 54075621600,
xm 15 11 [3,3,4] 10002448684800,
xm 15 11 [2,4,4] 11041842240000,
xm 15 11 [2,3,5] 23609082182400,
xm 15 11 [1,4,5] 30626823427200,
xm 15 11 [2,2,6] 14583682713600,
xm 15 11 [1,3,6] 34278452208000,
xm 15 11 [1,2,7] 43916842569600,
xm 15 11 [1,1,8] 33948939024000,
xp 15 11 [6,6] 3198762206640000,
xp 15 11 [5,7] 6614964195840000,
xp 15 11 [4,8] 7343844764256000,
xp 15 11 [3,9] 8907978983904000,
xp 15 11 [2,10] 12204921849120000,
xp 15 11 [1,11] 20152312820640000,
xm 15 11 [14] 7640621680019328000,
xp 16 11 [1,1,1,2,2] 410810400,
xp 16 11 [1,1,1,1,3] 229729500,
xm 16 11 [2,2,2,3] 65928582720,
xm 16 11 [1,2,3,3] 229634364960,
xm 16 11 [1,2,2,4] 250624614240,
xm 16 11 [1,1,3,4] 289167278400,
xm 16 11 [1,1,2,5] 336739122720,
xm 16 11 [1,1,1,6] 156799843200,
xp 16 11 [3,4,4] 32193697536000,
xp 16 11 [3,3,5] 34344021254400,
xp 16 11 [2,4,5] 75326973321600,
xp 16 11 [1,5,5] 51441937747200,
xp 16 11 [2,3,6] 84071786198400,
xp 16 11 [1,4,6] 107637168038400,
xp 16 11 [2,2,7] 53237758654080,
xp 16 11 [1,3,7] 124322470272000,
xp 16 11 [1,2,8] 161867513808000,
xp 16 11 [1,1,9] 125332804396800,
xm 16 11 [6,7] 26364840229728000,
xm 16 11 [5,8] 27949009888800000,
xm 16 11 [4,9] 31638185010432000,
xm 16 11 [3,10] 38935537280640000,
xm 16 11 [2,11] 53652458001542400,
xm 16 11 [1,12] 88227393199545600,
xp 16 11 [15] 38203108400096640000,
xp 17 11 [1,1,1,1,1,1] 45045,
xm 17 11 [1,1,2,2,2] 628828200,
xm 17 11 [1,1,1,2,3] 1405404000,
xm 17 11 [1,1,1,1,4] 411711300,
xp 17 11 [2,2,3,3] 217556539200,
xp 17 11 [1,3,3,3] 167416048800,
xp 17 11 [2,2,2,4] 157599842400,
xp 17 11 [1,2,3,4] 1088742695040,
xp 17 11 [1,1,4,4] 337891554000,
xp 17 11 [1,2,2,5] 626775589440,
xp 17 11 [1,1,3,5] 718053336000,
xp 17 11 [1,1,2,6] 863363460960,
xp 17 11 [1,1,1,7] 405913828320,
xm 17 11 [4,4,4] 29982858048000,
xm 17 11 [3,4,5] 191342709043200,
xm 17 11 [2,5,5] 111030505185600,
xm 17 11 [3,3,6] 106394766192000,
xm 17 11 [2,4,6] 232183032681600,
xm 17 11 [1,5,6] 312712681881600,
xm 17 11 [2,3,7] 266882587171200,
xm 17 11 [1,4,7] 337950451238400,
xm 17 11 [2,2,8] 171877449744000,
xm 17 11 [1,3,8] 398980790208000,
xm 17 11 [1,2,9] 524782956297600,
xm 17 11 [1,1,10] 405810405000000,
xp 17 11 [7,7] 46881915063984000,
xp 17 11 [6,8] 96145278989760000,
xp 17 11 [5,9] 103917573920160000,
xp 17 11 [4,10] 119463533725536000,
xp 17 11 [3,11] 148579479528480000,
xp 17 11 [2,12] 205440056613792000,
xp 17 11 [1,13] 336155715735840000,
xm 18 11 [1,1,1,1,1,2] 270270,
xp 18 11 [1,2,2,2,2] 448648200,
xp 18 11 [1,1,2,2,3] 2989186200,
xp 18 11 [1,1,1,3,3] 1108107000,
xp 18 11 [1,1,1,2,4] 2335132800,
xp 18 11 [1,1,1,1,5] 699999300,
xm 18 11 [2,3,3,3] 288544576320,
xm 18 11 [2,2,3,4] 936894198240,
xm 18 11 [1,3,3,4] 1072993521600,
xm 18 11 [1,2,4,4] 1157642085600,
xm 18 11 [2,2,2,5] 357275318400,
xm 18 11 [1,2,3,5] 2447400795840,
xm 18 11 [1,1,4,5] 1501295796000,
xm 18 11 [1,2,2,6] 1457317461600,
xm 18 11 [1,1,3,6] 1657684828800,
xm 18 11 [1,1,2,7] 2031824995200,
xm 18 11 [1,1,1,8] 958247690400,
xp 18 11 [4,4,5] 238370356224000,
xp 18 11 [3,5,5] 252750493195200,
xp 18 11 [3,4,6] 527990909846400,
xp 18 11 [2,5,6] 608563629273600,
xp 18 11 [1,6,6] 422573415264000,
xp 18 11 [3,3,7] 302013251654400,
xp 18 11 [2,4,7] 656614435276800,
xp 18 11 [1,5,7] 873000294566400,
xp 18 11 [2,3,8] 770656205404800,
xp 18 11 [1,4,8] 966358903910400,
xp 18 11 [2,2,9] 502096918752000,
xp 18 11 [1,3,9] 1158419017641600,
xp 18 11 [1,2,10] 1533569777625600,
xp 18 11 [1,1,11] 1181812656024000,
xm 18 11 [7,8] 303326107051968000,
xm 18 11 [6,9] 317144737990080000,
xm 18 11 [5,10] 348142473911232000,
xm 18 11 [4,11] 405149977552320000,
xm 18 11 [3,12] 507773947057977600,
xm 18 11 [2,13] 703446281720582400,
xm 18 11 [1,14] 1144367532820512000,
xp 12 12 [1,1,1,2] 761080320,
xm 12 12 [2,2,3] 89902612800,
xm 12 12 [1,3,3] 111104136000,
xm 12 12 [1,2,4] 248302454400,
xm 12 12 [1,1,5] 184086302400,
xp 12 12 [4,5] 25172731584000,
xp 12 12 [3,6] 28255106880000,
xp 12 12 [2,7] 36731638944000,
xp 12 12 [1,8] 61219398240000,
xm 12 12 [11] 15100042845888000,
xm 13 12 [1,1,2,2] 10469178720,
xm 13 12 [1,1,1,3] 8281072800,
xp 13 12 [2,3,3] 1232338536000,
xp 13 12 [2,2,4] 1374225652800,
xp 13 12 [1,3,4] 3287348064000,
xp 13 12 [1,2,5] 3927693369600,
xp 13 12 [1,1,6] 2949661915200,
xm 13 12 [5,5] 226554584256000,
xm 13 12 [4,6] 474685795584000,
xm 13 12 [3,7] 550974584160000,
xm 13 12 [2,8] 734632778880000,
xm 13 12 [1,9] 1211031005184000,
xp 13 12 [12] 347300985455424000,
xm 14 12 [1,1,1,1,1] 37837800,
xp 14 12 [1,2,2,2] 35026992000,
xp 14 12 [1,1,2,3] 122283120960,
xp 14 12 [1,1,1,4] 52281028800,
xm 14 12 [3,3,3] 2914190136000,
xm 14 12 [2,3,4] 19361364422400,
xm 14 12 [1,4,4] 12601284696000,
xm 14 12 [2,2,5] 11466669614400,
xm 14 12 [1,3,5] 26960146012800,
xm 14 12 [1,2,6] 33495144883200,
xm 14 12 [1,1,7] 25339693579200,
xp 14 12 [5,6] 4416016340736000,
xp 14 12 [4,7] 4783589594784000,
xp 14 12 [3,8] 5693404036320000,
xp 14 12 [2,9] 7700287218624000,
xp 14 12 [1,10] 12602291397696000,
xm 14 12 [13] 4167611825465088000,
xp 15 12 [1,1,1,1,2] 524323800,
xm 15 12 [2,2,2,2] 31407536160,
xm 15 12 [1,2,2,3] 435813618240,
xm 15 12 [1,1,3,3] 251221370400,
xm 15 12 [1,1,2,4] 548821072800,
xm 15 12 [1,1,1,5] 244583539200,
xp 15 12 [3,3,4] 47601589464000,
xp 15 12 [2,4,4] 52301136888000,
xp 15 12 [2,3,5] 111631801881600,
xp 15 12 [1,4,5] 142897154400000,
xp 15 12 [2,2,6] 68544320644800,
xp 15 12 [1,3,6] 159737872694400,
xp 15 12 [1,2,7] 203128532006400,
xp 15 12 [1,1,8] 154328537563200,
xm 15 12 [6,6] 14833931112000000,
xm 15 12 [5,7] 30676569539616000,
xm 15 12 [4,8] 34074717060384000,
xm 15 12 [3,9] 41309736852384000,
xm 15 12 [2,10] 56312941741056000,
xm 15 12 [1,11] 91678831564320000,
xp 15 12 [14] 34730098545542400000,
xm 16 12 [1,1,1,2,2] 2389186800,
xm 16 12 [1,1,1,1,3] 1337836500,
xp 16 12 [2,2,2,3] 414291477600,
xp 16 12 [1,2,3,3] 1431903432960,
xp 16 12 [1,2,2,4] 1551423313440,
xp 16 12 [1,1,3,4] 1780668489600,
xp 16 12 [1,1,2,5] 2044797955200,
xp 16 12 [1,1,1,6] 933231499200,
xm 16 12 [3,4,4] 201530393064000,
xm 16 12 [3,3,5] 214419733070400,
xm 16 12 [2,4,5] 468019769817600,
xm 16 12 [1,5,5] 315014603904000,
xm 16 12 [2,3,6] 520872387235200,
xm 16 12 [1,4,6] 659070216604800,
xm 16 12 [2,2,7] 327206980900800,
xm 16 12 [1,3,7] 758897922182400,
xm 16 12 [1,2,8] 978756902323200,
xm 16 12 [1,1,9] 745262692574400,
xp 16 12 [6,7] 159810884513280000,
xp 16 12 [5,8] 169451526980736000,
xp 16 12 [4,9] 191884968763488000,
xp 16 12 [3,10] 235746997982496000,
xp 16 12 [2,11] 322720840522080000,
xp 16 12 [1,12] 523108627161120000,
xm 16 12 [15] 225745640546025600000,
xm 17 12 [1,1,1,1,1,1] 270270,
xp 17 12 [1,1,2,2,2] 4702698000,
xp 17 12 [1,1,1,2,3] 10583773200,
xp 17 12 [1,1,1,1,4] 3116213100,
xm 17 12 [2,2,3,3] 1731072863520,
xm 17 12 [1,3,3,3] 1327328402400,
xm 17 12 [2,2,2,4] 1244781457920,
xm 17 12 [1,2,3,4] 8579277907200,
xm 17 12 [1,1,4,4] 2644343301600,
xm 17 12 [1,2,2,5] 4878403770240,
xm 17 12 [1,1,3,5] 5584275496800,
xm 17 12 [1,1,2,6] 6608114472960,
xm 17 12 [1,1,1,7] 3058595860320,
xp 17 12 [4,4,4] 236715655176000,
xp 17 12 [3,4,5] 1506132115488000,
xp 17 12 [2,5,5] 867020019465600,
xp 17 12 [3,3,6] 834140182075200,
xp 17 12 [2,4,6] 1811287788710400,
xp 17 12 [1,5,6] 2409764422665600,
xp 17 12 [2,3,7] 2073667980384000,
xp 17 12 [1,4,7] 2601980879097600,
xp 17 12 [2,2,8] 1322377531675200,
xp 17 12 [1,3,8] 3057322434566400,
xp 17 12 [1,2,9] 3977702573644800,
xp 17 12 [1,1,10] 3030527174875200,
xm 17 12 [7,7] 355895675239104000,
xm 17 12 [6,8] 729928303584480000,
xm 17 12 [5,9] 789202637391168000,
xm 17 12 [4,10] 907127894600928000,
xm 17 12 [3,11] 1125123493253760000,
xm 17 12 [2,12] 1543440093747552000,
xm 17 12 [1,13] 2491507069571520000,
xp 18 12 [1,1,1,1,1,2] 2162160,
xm 18 12 [1,2,2,2,2] 4145941800,
xm 18 12 [1,1,2,2,3] 28005377400,
xm 18 12 [1,1,1,3,3] 10513503000,
xm 18 12 [1,1,1,2,4] 22108086000,
xm 18 12 [1,1,1,1,5] 6697290600,
xp 18 12 [2,3,3,3] 2826055552320,
xp 18 12 [2,2,3,4] 9115891424640,
xp 18 12 [1,3,3,4] 10455946300800,
xp 18 12 [1,2,4,4] 11222129318400,
xp 18 12 [2,2,2,5] 3435525213120,
xp 18 12 [1,2,3,5] 23602354776000,
xp 18 12 [1,1,4,5] 14457715272000,
xp 18 12 [1,2,2,6] 13844535344640,
xp 18 12 [1,1,3,6] 15806903112000,
xp 18 12 [1,1,2,7] 19063622017440,
xp 18 12 [1,1,1,8] 8895364077600,
xm 18 12 [4,4,5] 2297635107768000,
xm 18 12 [3,5,5] 2428695733464000,
xm 18 12 [3,4,6] 5065493053420800,
xm 18 12 [2,5,6] 5791495959849600,
xm 18 12 [1,6,6] 3978232648790400,
xm 18 12 [3,3,7] 2883243862699200,
xm 18 12 [2,4,7] 6237437049043200,
xm 18 12 [1,5,7] 8217416387980800,
xm 18 12 [2,3,8] 7282471247251200,
xm 18 12 [1,4,8] 9078263094700800,
xm 18 12 [2,2,9] 4691721967732800,
xm 18 12 [1,3,9] 10816423086268800,
xm 18 12 [1,2,10] 14151030865171200,
xm 18 12 [1,1,11] 10772610546297600,
xp 18 12 [7,8] 2798800193629440000,
xp 18 12 [6,9] 2926865352483072000,
xp 18 12 [5,10] 3213764625367296000,
xp 18 12 [4,11] 3737036875283712000,
xp 18 12 [3,12] 4666253841849600000,
xp 18 12 [2,13] 6406732464612480000,
xp 18 12 [1,14] 10298229220895616000,
xp 13 13 [1,1,2,2] 5494975200,
xp 13 13 [1,1,1,3] 4305787200,
xm 13 13 [2,3,3] 672184656000,
xm 13 13 [2,2,4] 740237097600,
xm 13 13 [1,3,4] 1774700928000,
xm 13 13 [1,2,5] 2110960051200,
xm 13 13 [1,1,6] 1566874108800,
xp 13 13 [5,5] 123708967200000,
xp 13 13 [4,6] 258592606272000,
xp 13 13 [3,7] 301138725888000,
xp 13 13 [2,8] 398887384896000,
xp 13 13 [1,9] 653681508480000,
xm 13 13 [12] 189436901157504000,
xp 14 13 [1,1,1,1,1] 36936900,
xm 14 13 [1,2,2,2] 38816949600,
xm 14 13 [1,1,2,3] 135493300800,
xm 14 13 [1,1,1,4] 57016159200,
xp 14 13 [3,3,3] 3360923280000,
xp 14 13 [2,3,4] 22137058944000,
xp 14 13 [1,4,4] 14322364056000,
xp 14 13 [2,2,5] 12995014032000,
xp 14 13 [1,3,5] 30633050448000,
xp 14 13 [1,2,6] 37716286608000,
xp 14 13 [1,1,7] 28235128521600,
xm 14 13 [5,6] 5048930734848000,
xm 14 13 [4,7] 5469674962752000,
xm 14 13 [3,8] 6511517812800000,
xm 14 13 [2,9] 8742130068672000,
xm 14 13 [1,10] 14217572809440000,
xp 14 13 [13] 4735922528937600000,
xm 15 13 [1,1,1,1,2] 830449620,
xp 15 13 [2,2,2,2] 55301875200,
xp 15 13 [1,2,2,3] 766766800800,
xp 15 13 [1,1,3,3] 443573301600,
xp 15 13 [1,1,2,4] 959594407200,
xp 15 13 [1,1,1,5] 421988767200,
xm 15 13 [3,3,4] 86289828768000,
xm 15 13 [2,4,4] 94312338120000,
xm 15 13 [2,3,5] 200616707491200,
xm 15 13 [1,4,5] 256094014176000,
xm 15 13 [2,2,6] 122168699452800,
xm 15 13 [1,3,6] 285404601081600,
xm 15 13 [1,2,7] 359230862390400,
xm 15 13 [1,1,8] 270589740220800,
xp 15 13 [6,6] 26605452313440000,
xp 15 13 [5,7] 55016802929088000,
xp 15 13 [4,8] 61134804162432000,
xp 15 13 [3,9] 73964163873600000,
xp 15 13 [2,10] 100087240020768000,
xp 15 13 [1,11] 161949593725920000,
xm 15 13 [14] 61566992876188800000,
xp 16 13 [1,1,1,2,2] 5424859440,
xp 16 13 [1,1,1,1,3] 3085582500,
xm 16 13 [2,2,2,3] 1027551096000,
xm 16 13 [1,2,3,3] 3555045093600,
xm 16 13 [1,2,2,4] 3834825508800,
xm 16 13 [1,1,3,4] 4425283605600,
xm 16 13 [1,1,2,5] 5016059848800,
xm 16 13 [1,1,1,6] 2271046377600,
xp 16 13 [3,4,4] 511063488936000,
xp 16 13 [3,3,5] 541560107088000,
xp 16 13 [2,4,5] 1178704983456000,
xp 16 13 [1,5,5] 789930669528000,
xp 16 13 [2,3,6] 1305389829744000,
xp 16 13 [1,4,6] 1651277483856000,
xp 16 13 [2,2,7] 813259035388800,
xp 16 13 [1,3,7] 1891068638659200,
xp 16 13 [1,2,8] 2414826990576000,
xp 16 13 [1,1,9] 1827120767472000,
xm 16 13 [6,7] 398865528052992000,
xm 16 13 [5,8] 422988197119488000,
xm 16 13 [4,9] 478869263832960000,
xm 16 13 [3,10] 586240499164320000,
xm 16 13 [2,11] 796870442912544000,
xm 16 13 [1,12] 1284647584540320000,
xp 16 13 [15] 554102935885699200000,
xp 17 13 [1,1,1,1,1,1] 450450,
xm 17 13 [1,1,2,2,2] 14244310080,
xm 17 13 [1,1,1,2,3] 32536183680]
def extC6_1 : PL := [
xm 17 13 [1,1,1,1,4] 9833323500,
xp 17 13 [2,2,3,3] 5658888549600,
xp 17 13 [1,3,3,3] 4346580981600,
xp 17 13 [2,2,2,4] 4058414474400,
xp 17 13 [1,2,3,4] 28067517878400,
xp 17 13 [1,1,4,4] 8702372764800,
xp 17 13 [1,2,2,5] 15838130880000,
xp 17 13 [1,1,3,5] 18253223445600,
xp 17 13 [1,1,2,6] 21337146230400,
xp 17 13 [1,1,1,7] 9853092849600,
xm 17 13 [4,4,4] 786737591640000,
xm 17 13 [3,4,5] 4987793066256000,
xm 17 13 [2,5,5] 2857153683384000,
xm 17 13 [3,3,6] 2747286074332800,
xm 17 13 [2,4,6] 5957523123552000,
xm 17 13 [1,5,6] 7911686791008000,
xm 17 13 [2,3,7] 6780427035782400,
xm 17 13 [1,4,7] 8523417898195200,
xm 17 13 [2,2,8] 4288465938556800,
xm 17 13 [1,3,8] 9946405534665600,
xm 17 13 [1,2,9] 12824796083299200,
xm 17 13 [1,1,10] 9733142266848000,
xp 17 13 [7,7] 1156796534013120000,
xp 17 13 [6,8] 2372673795972480000,
xp 17 13 [5,9] 2565571410642240000,
xp 17 13 [4,10] 2945502537737760000,
xp 17 13 [3,11] 3637040907820320000,
xp 17 13 [2,12] 4956049776918240000,
xp 17 13 [1,13] 7965272601205920000,
xm 18 13 [1,1,1,1,1,2] 5315310,
xp 18 13 [1,2,2,2,2] 15942146220,
xp 18 13 [1,1,2,2,3] 109387998720,
xp 18 13 [1,1,1,3,3] 41702661000,
xp 18 13 [1,1,1,2,4] 88513064640,
xp 18 13 [1,1,1,1,5] 27717990300,
xm 18 13 [2,3,3,3] 11659003012800,
xm 18 13 [2,2,3,4] 37566791776800,
xm 18 13 [1,3,3,4] 43257491877600,
xm 18 13 [1,2,4,4] 46473161248800,
xm 18 13 [2,2,2,5] 14082694797600,
xm 18 13 [1,2,3,5] 97326889545600,
xm 18 13 [1,1,4,5] 60176329012800,
xm 18 13 [1,2,2,6] 56595835296000,
xm 18 13 [1,1,3,6] 65151372686400,
xm 18 13 [1,1,2,7] 77807273544000,
xm 18 13 [1,1,1,8] 36413412235200,
xp 18 13 [4,4,5] 9564268273560000,
xp 18 13 [3,5,5] 10081677053448000,
xp 18 13 [3,4,6] 20977443671184000,
xp 18 13 [2,5,6] 23906402298979200,
xp 18 13 [1,6,6] 16396522976433600,
xp 18 13 [3,3,7] 11869041017433600,
xp 18 13 [2,4,7] 25664956562044800,
xp 18 13 [1,5,7] 33841941163430400,
xp 18 13 [2,3,8] 29770008716448000,
xp 18 13 [1,4,8] 37249392372192000,
xp 18 13 [2,2,9] 19028213360956800,
xp 18 13 [1,3,9] 44052365893536000,
xp 18 13 [1,2,10] 57181737758745600,
xp 18 13 [1,1,11] 43472228614214400,
xm 18 13 [7,8] 11355045222673152000,
xm 18 13 [6,9] 11875692830025024000,
xm 18 13 [5,10] 13036563088829280000,
xm 18 13 [4,11] 15128135668822176000,
xm 18 13 [3,12] 18796317619663584000,
xm 18 13 [2,13] 25645592465517024000,
xm 18 13 [1,14] 41097283278891840000,
xm 14 14 [1,1,1,1,1] 11711700,
xp 14 14 [1,2,2,2] 14259136320,
xp 14 14 [1,1,2,3] 50196088800,
xp 14 14 [1,1,1,4] 20893672800,
xm 14 14 [3,3,3] 1307025720000,
xm 14 14 [2,3,4] 8518045536000,
xm 14 14 [1,4,4] 5507670168000,
xm 14 14 [2,2,5] 4944643704000,
xm 14 14 [1,3,5] 11772961200000,
xm 14 14 [1,2,6] 14333045126400,
xm 14 14 [1,1,7] 10667016360000,
xp 14 14 [5,6] 1963473063552000,
xp 14 14 [4,7] 2127095818848000,
xp 14 14 [3,8] 2532256927200000,
xp 14 14 [2,9] 3368179983168000,
xp 14 14 [1,10] 5469135287616000,
xm 14 14 [13] 1841747650142400000,
xp 15 14 [1,1,1,1,2] 573512940,
xm 15 14 [2,2,2,2] 42777408960,
xm 15 14 [1,2,2,3] 597182414400,
xm 15 14 [1,1,3,3] 348926292000,
xm 15 14 [1,1,2,4] 748280332800,
xm 15 14 [1,1,1,5] 326983456800,
xp 15 14 [3,3,4] 70037767800000,
xp 15 14 [2,4,4] 76149329256000,
xp 15 14 [2,3,5] 161427730464000,
xp 15 14 [1,4,5] 206721523008000,
xp 15 14 [2,2,6] 97390216123200,
xp 15 14 [1,3,6] 229422905712000,
xp 15 14 [1,2,7] 285727627785600,
xp 15 14 [1,1,8] 214546163832000,
xm 15 14 [6,6] 21598203699072000,
xm 15 14 [5,7] 44669012195808000,
xm 15 14 [4,8] 49632235773120000,
xm 15 14 [3,9] 59889267678240000,
xm 15 14 [2,10] 80402825543040000,
xm 15 14 [1,11] 129951883885824000,
xp 15 14 [14] 49727186553844800000,
xm 16 14 [1,1,1,2,2] 6034588560,
xm 16 14 [1,1,1,1,3] 3513510000,
xp 16 14 [2,2,2,3] 1261099588320,
xp 16 14 [1,2,3,3] 4390642713600,
xp 16 14 [1,2,2,4] 4724316511200,
xp 16 14 [1,1,3,4] 5505779822400,
xp 16 14 [1,1,2,5] 6179085712800,
xp 16 14 [1,1,1,6] 2793921530400,
xm 16 14 [3,4,4] 651081078648000,
xm 16 14 [3,3,5] 687356069400000,
xm 16 14 [2,4,5] 1493300560752000,
xm 16 14 [1,5,5] 1002318781464000,
xm 16 14 [2,3,6] 1644979630694400,
xm 16 14 [1,4,6] 2091889800000000,
xm 16 14 [2,2,7] 1016734334616000,
xm 16 14 [1,3,7] 2380963673088000,
xm 16 14 [1,2,8] 3013441397366400,
xm 16 14 [1,1,9] 2278196424504000,
xp 16 14 [6,7] 506085182130528000,
xp 16 14 [5,8] 536737178289312000,
xp 16 14 [4,9] 607112772346080000,
xp 16 14 [3,10] 740227219988256000,
xp 16 14 [2,11] 999609762767616000,
xp 16 14 [1,12] 1610671236894720000,
xm 16 14 [15] 696180611753827200000,
xp 17 14 [1,1,2,2,2] 22495112640,
xp 17 14 [1,1,1,2,3] 52369677360,
xp 17 14 [1,1,1,1,4] 16378362000,
xm 17 14 [2,2,3,3] 9754655882400,
xm 17 14 [1,3,3,3] 7532749224000,
xm 17 14 [2,2,2,4] 6995483352000,
xm 17 14 [1,2,3,4] 48697193001600,
xm 17 14 [1,1,4,4] 15259984740000,
xm 17 14 [1,2,2,5] 27367561821600,
xm 17 14 [1,1,3,5] 31842324914400,
xm 17 14 [1,1,2,6] 36919811728800,
xm 17 14 [1,1,1,7] 17106945055200,
xp 17 14 [4,4,4] 1397781304920000,
xp 17 14 [3,4,5] 8834732354448000,
xp 17 14 [2,5,5] 5046519710232000,
xp 17 14 [3,3,6] 4840969645512000,
xp 17 14 [2,4,6] 10500060851280000,
xp 17 14 [1,5,6] 13993886546640000,
xp 17 14 [2,3,7] 11876614631481600,
xp 17 14 [1,4,7] 15028477512048000,
xp 17 14 [2,2,8] 7461698527483200,
xp 17 14 [1,3,8] 17416362259296000,
xp 17 14 [1,2,9] 22300000618896000,
xp 17 14 [1,1,10] 16946549756136000,
xm 17 14 [7,7] 2035630698637536000,
xm 17 14 [6,8] 4175489092398624000,
xm 17 14 [5,9] 4513884325030080000,
xm 17 14 [4,10] 5173094973926880000,
xm 17 14 [3,11] 6357739035551904000,
xm 17 14 [2,12] 8617091117386752000,
xm 17 14 [1,13] 13853450419833024000,
xp 18 14 [1,1,1,1,1,2] 2702700,
xm 18 14 [1,2,2,2,2] 33241588380,
xm 18 14 [1,1,2,2,3] 232114362480,
xm 18 14 [1,1,1,3,3] 89972883000,
xm 18 14 [1,1,1,2,4] 193554401040,
xm 18 14 [1,1,1,1,5] 63026964000,
xp 18 14 [2,3,3,3] 26361814564800,
xp 18 14 [2,2,3,4] 85072501800000,
xp 18 14 [1,3,3,4] 98518937774400,
xp 18 14 [1,2,4,4] 106169036688000,
xp 18 14 [2,2,2,5] 31850071624800,
xp 18 14 [1,2,3,5] 221720711097600,
xp 18 14 [1,1,4,5] 138807558489600,
xp 18 14 [1,2,2,6] 128409925644000,
xp 18 14 [1,1,3,6] 149221731859200,
xp 18 14 [1,1,2,7] 177252730855200,
xp 18 14 [1,1,1,8] 83583029930400,
xm 18 14 [4,4,5] 22129591708224000,
xm 18 14 [3,5,5] 23278405694544000,
xm 18 14 [3,4,6] 48327136537680000,
xm 18 14 [2,5,6] 55036628206560000,
xm 18 14 [1,6,6] 37868492509848000,
xm 18 14 [3,3,7] 27189764810208000,
xm 18 14 [2,4,7] 58874542725398400,
xm 18 14 [1,5,7] 78057900752832000,
xm 18 14 [2,3,8] 67857670174694400,
xm 18 14 [1,4,8] 85548714883632000,
xm 18 14 [2,2,9] 43134631459920000,
xm 18 14 [1,3,9] 100478841791328000,
xm 18 14 [1,2,10] 129752288409744000,
xm 18 14 [1,1,11] 98973401134608000,
xp 18 14 [7,8] 25942060606670208000,
xp 18 14 [6,9] 27130772132335872000,
xp 18 14 [5,10] 29761412781260160000,
xp 18 14 [4,11] 34448143348146528000,
xp 18 14 [3,12] 42594704194442400000,
xp 18 14 [2,13] 57863364185442816000,
xp 18 14 [1,14] 92845130111750016000,
xm 15 15 [1,1,1,1,2] 145765620,
xp 15 15 [2,2,2,2] 12305779200,
xp 15 15 [1,2,2,3] 173735733600,
xp 15 15 [1,1,3,3] 102779820000,
xp 15 15 [1,1,2,4] 218918700000,
xp 15 15 [1,1,1,5] 95545850400,
xm 15 15 [3,3,4] 21379044960000,
xm 15 15 [2,4,4] 23119996536000,
xm 15 15 [2,3,5] 48902280336000,
xm 15 15 [1,4,5] 62978059872000,
xm 15 15 [2,2,6] 29210176195200,
xm 15 15 [1,3,6] 69563606112000,
xm 15 15 [1,2,7] 85798227715200,
xm 15 15 [1,1,8] 64406854512000,
xp 15 15 [6,6] 6643664774208000,
xp 15 15 [5,7] 13748888305152000,
xp 15 15 [4,8] 15263829060480000,
xp 15 15 [3,9] 18373214059200000,
xp 15 15 [2,10] 24475344173280000,
xp 15 15 [1,11] 39615613573536000,
xm 15 15 [14] 15300672785798400000,
xp 16 15 [1,1,1,2,2] 3296212920,
xp 16 15 [1,1,1,1,3] 1972070100,
xm 16 15 [2,2,2,3] 767322784800,
xm 16 15 [1,2,3,3] 2697078384000,
xm 16 15 [1,2,2,4] 2897251156800,
xm 16 15 [1,1,3,4] 3414374964000,
xm 16 15 [1,1,2,5] 3807434030400,
xm 16 15 [1,1,1,6] 1725273950400,
xp 16 15 [3,4,4] 414906612120000,
xp 16 15 [3,3,5] 436922806320000,
xp 16 15 [2,4,5] 947410079616000,
xp 16 15 [1,5,5] 638966103048000,
xp 16 15 [2,3,6] 1038717663984000,
xp 16 15 [1,4,6] 1330549588368000,
xp 16 15 [2,2,7] 637126973683200,
xp 16 15 [1,3,7] 1505643034896000,
xp 16 15 [1,2,8] 1891072271088000,
xp 16 15 [1,1,9] 1432078567920000,
xm 16 15 [6,7] 323973055486080000,
xm 16 15 [5,8] 343607786121600000,
xm 16 15 [4,9] 388097592442560000,
xm 16 15 [3,10] 471467787991200000,
xm 16 15 [2,11] 632829068359488000,
xm 16 15 [1,12] 1021663971199872000,
xp 16 15 [15] 443719510788153600000,
xm 17 15 [1,1,1,1,1,1] 675675,
xm 17 15 [1,1,2,2,2] 19607702400,
xm 17 15 [1,1,1,2,3] 46605667680,
xm 17 15 [1,1,1,1,4] 15110795700,
xp 17 15 [2,2,3,3] 9368413797600,
xp 17 15 [1,3,3,3] 7291961820000,
xp 17 15 [2,2,2,4] 6724654279200,
xp 17 15 [1,2,3,4] 47203597584000,
xp 17 15 [1,1,4,4] 14960903958000,
xp 17 15 [1,2,2,5] 26483260003200,
xp 17 15 [1,1,3,5] 31126498603200,
xp 17 15 [1,1,2,6] 35918818135200,
xp 17 15 [1,1,1,7] 16731875160000,
xm 17 15 [4,4,4] 1394373151080000,
xm 17 15 [3,4,5] 8794768246992000,
xm 17 15 [2,5,5] 5014554749568000,
xm 17 15 [3,3,6] 4799318483232000,
xm 17 15 [2,4,6] 10412537951088000,
xm 17 15 [1,5,6] 13961831188032000,
xm 17 15 [2,3,7] 11711941844803200,
xm 17 15 [1,4,7] 14941082572416000,
xm 17 15 [2,2,8] 7316365699843200,
xm 17 15 [1,3,8] 17211201383376000,
xm 17 15 [1,2,9] 21914116031808000,
xm 17 15 [1,1,10] 16709733560520000,
xp 17 15 [7,7] 2030205974981184000,
xp 17 15 [6,8] 4164585866977536000,
xp 17 15 [5,9] 4499682436529280000,
xp 17 15 [4,10] 5146133478726240000,
xp 17 15 [3,11] 6298515490883616000,
xp 17 15 [2,12] 8497786699610208000,
xp 17 15 [1,13] 13696530821509536000,
xp 18 15 [1,1,1,1,1,2] 8558550,
xp 18 15 [1,2,2,2,2] 40762430280,
xp 18 15 [1,1,2,2,3] 289903030560,
xp 18 15 [1,1,1,3,3] 114283283400,
xp 18 15 [1,1,1,2,4] 249300651600,
xp 18 15 [1,1,1,1,5] 84361176900,
xm 18 15 [2,3,3,3] 35365539924000,
xm 18 15 [2,2,3,4] 114401510308800,
xm 18 15 [1,3,3,4] 133436190888000,
xm 18 15 [1,2,4,4] 144233477388000,
xm 18 15 [2,2,2,5] 42868821996000,
xm 18 15 [1,2,3,5] 300773277604800,
xm 18 15 [1,1,4,5] 190636566120000,
xm 18 15 [1,2,2,6] 174011177340000,
xm 18 15 [1,1,3,6] 204130758031200,
xm 18 15 [1,1,2,7] 241838741944800,
xm 18 15 [1,1,1,8] 114981160694400,
xp 18 15 [4,4,5] 30624863429160000,
xp 18 15 [3,5,5] 32169515113008000,
xp 18 15 [3,4,6] 66666962089728000,
xp 18 15 [2,5,6] 75936677792976000,
xp 18 15 [1,6,6] 52537329732888000,
xp 18 15 [3,3,7] 37330835317776000,
xp 18 15 [2,4,7] 80961112984752000,
xp 18 15 [1,5,7] 108124074362304000,
xp 18 15 [2,3,8] 92794087097712000,
xp 18 15 [1,4,8] 118002430754208000,
xp 18 15 [2,2,9] 58743908391168000,
xp 18 15 [1,3,9] 137809418947200000,
xp 18 15 [1,2,10] 177293046922992000,
xp 18 15 [1,1,11] 135908556631848000,
xm 18 15 [7,8] 35781024128129280000,
xm 18 15 [6,9] 37414446719569920000,
xm 18 15 [5,10] 40998723589343520000,
xm 18 15 [4,11] 47332914608659680000,
xm 18 15 [3,12] 58282856751030912000,
xm 18 15 [2,13] 78910184044980288000,
xm 18 15 [1,14] 127029990396909600000,
xm 16 16 [1,1,1,2,2] 708107400,
xm 16 16 [1,1,1,1,3] 436035600,
xp 16 16 [2,2,2,3] 185411397600,
xp 16 16 [1,2,3,3] 659211696000,
xp 16 16 [1,2,2,4] 706961455200,
xp 16 16 [1,1,3,4] 842377536000,
xp 16 16 [1,1,2,5] 936349333920,
xp 16 16 [1,1,1,6] 425967141600,
xm 16 16 [3,4,4] 105552326880000,
xm 16 16 [3,3,5] 111051132192000,
xm 16 16 [2,4,5] 240121705824000,
xm 16 16 [1,5,5] 163005324955200,
xm 16 16 [2,3,6] 262327261996800,
xm 16 16 [1,4,6] 338504223657600,
xm 16 16 [2,2,7] 159682452209280,
xm 16 16 [1,3,7] 381172548556800,
xm 16 16 [1,2,8] 475568475782400,
xm 16 16 [1,1,9] 361073022710400,
xp 16 16 [6,7] 83307357124992000,
xp 16 16 [5,8] 88356287859840000,
xp 16 16 [4,9] 99607300176384000,
xp 16 16 [3,10] 120669606465408000,
xp 16 16 [2,11] 161021365983878400,
xp 16 16 [1,12] 260759084883897600,
xm 16 16 [15] 114099302774096640000,
xp 17 16 [1,1,1,1,1,1] 630630,
xp 17 16 [1,1,2,2,2] 8965705320,
xp 17 16 [1,1,1,2,3] 21760596000,
xp 17 16 [1,1,1,1,4] 7308100800,
xm 17 16 [2,2,3,3] 4758806052000,
xm 17 16 [1,3,3,3] 3739919040000,
xm 17 16 [2,2,2,4] 3418764148800,
xm 17 16 [1,2,3,4] 24223759560000,
xm 17 16 [1,1,4,4] 7757505756000,
xm 17 16 [1,2,2,5] 13585919387040,
xm 17 16 [1,1,3,5] 16126621711200,
xm 17 16 [1,1,2,6] 18567886296960,
xm 17 16 [1,1,1,7] 8698719949920,
xp 17 16 [4,4,4] 738866288160000,
xp 17 16 [3,4,5] 4655266263648000,
xp 17 16 [2,5,5] 2650111327281600,
xp 17 16 [3,3,6] 2533198764096000,
xp 17 16 [2,4,6] 5493142269014400,
xp 17 16 [1,5,6] 7418044387353600,
xp 17 16 [2,3,7] 6150596573721600,
xp 17 16 [1,4,7] 7910251203254400,
xp 17 16 [2,2,8] 3821942210486400,
xp 17 16 [1,3,8] 9068262499296000,
xp 17 16 [1,2,9] 11490516768931200,
xp 17 16 [1,1,10] 8796374165779200,
xm 17 16 [7,7] 1082995642624896000,
xm 17 16 [6,8] 2221529523333120000,
xm 17 16 [5,9] 2398522595204736000,
xm 17 16 [4,10] 2737225948609152000,
xm 17 16 [3,11] 3339168565692960000,
xm 17 16 [2,12] 4485768672280896000,
xm 17 16 [1,13] 7255676182154400000,
xm 18 16 [1,1,1,1,1,2] 15495480,
xm 18 16 [1,2,2,2,2] 29489854680,
xm 18 16 [1,1,2,2,3] 213555771000,
xm 18 16 [1,1,1,3,3] 85596053400,
xm 18 16 [1,1,1,2,4] 189098910000,
xm 18 16 [1,1,1,1,5] 66322456200,
xp 18 16 [2,3,3,3] 28193160996000,
xp 18 16 [2,2,3,4] 91401527131200,
xp 18 16 [1,3,3,4] 107491212972000,
xp 18 16 [1,2,4,4] 116429937624000,
xp 18 16 [2,2,2,5] 34311792715200,
xp 18 16 [1,2,3,5] 242701301082240,
xp 18 16 [1,1,4,5] 155532276900000,
xp 18 16 [1,2,2,6] 140507664897600,
xp 18 16 [1,1,3,6] 166328590428000,
xp 18 16 [1,1,2,7] 196854613956000,
xp 18 16 [1,1,1,8] 94305700288800,
xm 18 16 [4,4,5] 25298389404288000,
xm 18 16 [3,5,5] 26552110591843200,
xm 18 16 [3,4,6] 54955666038873600,
xm 18 16 [2,5,6] 62606043685785600,
xm 18 16 [1,6,6] 43595615863800000,
xm 18 16 [3,3,7] 30659743351036800,
xm 18 16 [2,4,7] 66558063690518400,
xm 18 16 [1,5,7] 89577984454358400,
xm 18 16 [2,3,8] 75936683241619200,
xm 18 16 [1,4,8] 97392679169385600,
xm 18 16 [2,2,9] 47904958278777600]
def extC6_2 : PL := [
xm 18 16 [1,3,9] 113232117427228800,
xm 18 16 [1,2,10] 145217124663811200,
xm 18 16 [1,1,11] 111902103232920000,
xp 18 16 [7,8] 29657419136497152000,
xp 18 16 [6,9] 31001837192726400000,
xp 18 16 [5,10] 33930109353748608000,
xp 18 16 [4,11] 39079139673686112000,
xp 18 16 [3,12] 47956690690958649600,
xp 18 16 [2,13] 64735527437899718400,
xp 18 16 [1,14] 104637577208804640000,
xm 17 17 [1,1,1,1,1,1] 180180,
xm 17 17 [1,1,2,2,2] 1682675280,
xm 17 17 [1,1,1,2,3] 4166791200,
xm 17 17 [1,1,1,1,4] 1446845400,
xp 17 17 [2,2,3,3] 999684504000,
xp 17 17 [1,3,3,3] 794046240000,
xp 17 17 [2,2,2,4] 718378053120,
xp 17 17 [1,2,3,4] 5140350633600,
xp 17 17 [1,1,4,4] 1660668172800,
xp 17 17 [1,2,2,5] 2883719180160,
xp 17 17 [1,1,3,5] 3455461900800,
xp 17 17 [1,1,2,6] 3976532239680,
xp 17 17 [1,1,1,7] 1873422270720,
xm 17 17 [4,4,4] 162279737424000,
xm 17 17 [3,4,5] 1022323843296000,
xm 17 17 [2,5,5] 580962800476800,
xm 17 17 [3,3,6] 555362837568000,
xm 17 17 [2,4,6] 1202321079590400,
xm 17 17 [1,5,6] 1635588804326400,
xm 17 17 [2,3,7] 1341738247449600,
xm 17 17 [1,4,7] 1738381137292800,
xm 17 17 [2,2,8] 829359776044800,
xm 17 17 [1,3,8] 1985495960448000,
xm 17 17 [1,2,9] 2504667592627200,
xm 17 17 [1,1,10] 1924896496723200,
xp 17 17 [7,7] 240684398104550400,
xp 17 17 [6,8] 493630074153216000,
xp 17 17 [5,9] 532541886484608000,
xp 17 17 [4,10] 606453857545536000,
xp 17 17 [3,11] 738036592989696000,
xp 17 17 [2,12] 987176740476326400,
xp 17 17 [1,13] 1602927625178880000,
xp 18 17 [1,1,1,1,1,2] 9999990,
xp 18 17 [1,2,2,2,2] 11682830016,
xp 18 17 [1,1,2,2,3] 86026786560,
xp 18 17 [1,1,1,3,3] 35043980400,
xp 18 17 [1,1,1,2,4] 78250732560,
xp 18 17 [1,1,1,1,5] 28362133800,
xm 18 17 [2,3,3,3] 12378983760000,
xm 18 17 [2,2,3,4] 40192305753600,
xm 18 17 [1,3,3,4] 47688384744000,
xm 18 17 [1,2,4,4] 51699198751200,
xm 18 17 [2,2,2,5] 15116560018560,
xm 18 17 [1,2,3,5] 107816065156800,
xm 18 17 [1,1,4,5] 69742632960000,
xm 18 17 [1,2,2,6] 62509143977280,
xm 18 17 [1,1,3,6] 74634865905600,
xm 18 17 [1,1,2,7] 88329079238400,
xm 18 17 [1,1,1,8] 42600043886400,
xp 18 17 [4,4,5] 11537819813520000,
xp 18 17 [3,5,5] 12105728592048000,
xp 18 17 [3,4,6] 25032247400160000,
xp 18 17 [2,5,6] 28508837739782400,
xp 18 17 [1,6,6] 19984576279852800,
xp 18 17 [3,3,7] 13928408125632000,
xp 18 17 [2,4,7] 30237485178700800,
xp 18 17 [1,5,7] 41004701568230400,
xp 18 17 [2,3,8] 34376159353536000,
xp 18 17 [1,4,8] 44436464104032000,
xp 18 17 [2,2,9] 21613118970643200,
xp 18 17 [1,3,9] 51485975757216000,
xp 18 17 [1,2,10] 65833521798844800,
xp 18 17 [1,1,11] 50980537041033600,
xm 18 17 [7,8] 13637722907128320000,
xm 18 17 [6,9] 14249672011935360000,
xm 18 17 [5,10] 15576380561117376000,
xm 18 17 [4,11] 17901787159384128000,
xm 18 17 [3,12] 21910725341144640000,
xm 18 17 [2,13] 29488201387444800000,
xm 18 17 [1,14] 47869247715569280000,
xm 18 18 [1,1,1,1,1,2] 2342340,
xm 18 18 [1,2,2,2,2] 1958669856,
xm 18 18 [1,1,2,2,3] 14631491160,
xm 18 18 [1,1,1,3,3] 6055592400,
xm 18 18 [1,1,1,2,4] 13638184560,
xm 18 18 [1,1,1,1,5] 5094589500,
xp 18 18 [2,3,3,3] 2311040160000,
xp 18 18 [2,2,3,4] 7507581681600,
xp 18 18 [1,3,3,4] 8988963984000,
xp 18 18 [1,2,4,4] 9742375843200,
xp 18 18 [2,2,2,5] 2827962577440,
xp 18 18 [1,2,3,5] 20339266147200,
xp 18 18 [1,1,4,5] 13259273227200,
xp 18 18 [1,2,2,6] 11811348188640,
xp 18 18 [1,1,3,6] 14217456052800,
xp 18 18 [1,1,2,7] 16835952893760,
xp 18 18 [1,1,1,8] 8168770209600,
xm 18 18 [4,4,5] 2239705652184000,
xm 18 18 [3,5,5] 2350459231848000,
xm 18 18 [3,4,6] 4856348440944000,
xm 18 18 [2,5,6] 5526313608816000,
xm 18 18 [1,6,6] 3898661382000000,
xm 18 18 [3,3,7] 2697545688552000,
xm 18 18 [2,4,7] 5850125695814400,
xm 18 18 [1,5,7] 7990415793360000,
xm 18 18 [2,3,8] 6634086709536000,
xm 18 18 [1,4,8] 8634988986624000,
xm 18 18 [2,2,9] 4156025935089600,
xm 18 18 [1,3,9] 9978797310768000,
xm 18 18 [1,2,10] 12721432319481600,
xm 18 18 [1,1,11] 9895020029294400,
xp 18 18 [7,8] 2678838428185920000,
xp 18 18 [6,9] 2797481621975040000,
xp 18 18 [5,10] 3054522952825344000,
xp 18 18 [4,11] 3503667517301952000,
xp 18 18 [3,12] 4280024931646464000,
xp 18 18 [2,13] 5741800091707680000,
xp 18 18 [1,14] 9359952382740960000]
/-- row 6 -/
def extC6 : PL := extC6_0 ++ extC6_1 ++ extC6_2
def extC7_0 : PL := [
xm 13 13 [1,1,2,2] 1049883120,
xm 13 13 [1,1,1,3] 883396800,
xp 13 13 [2,3,3] 112030776000,
xp 13 13 [2,2,4] 123372849600,
xp 13 13 [1,3,4] 313945632000,
xp 13 13 [1,2,5] 373621248000,
xp 13 13 [1,1,6] 295394299200,
xm 13 13 [5,5] 20618161200000,
xm 13 13 [4,6] 43098767712000,
xm 13 13 [3,7] 50189787648000,
xm 13 13 [2,8] 66481230816000,
xm 13 13 [1,9] 115254371232000,
xp 13 13 [12] 31572816859584000,
xm 14 13 [1,1,1,1,1] 11711700,
xp 14 13 [1,2,2,2] 7468718400,
xp 14 13 [1,1,2,3] 27586072800,
xp 14 13 [1,1,1,4] 12648636000,
xm 14 13 [3,3,3] 560153880000,
xm 14 13 [2,3,4] 3743996256000,
xm 14 13 [1,4,4] 2577510936000,
xm 14 13 [2,2,5] 2231219390400,
xm 14 13 [1,3,5] 5514805296000,
xm 14 13 [1,2,6] 6901095801600,
xm 14 13 [1,1,7] 5546848507200,
xp 14 13 [5,6] 841488455808000,
xp 14 13 [4,7] 911612493792000,
xp 14 13 [3,8] 1085252968800000,
xp 14 13 [2,9] 1475944037568000,
xp 14 13 [1,10] 2549357883072000,
xm 14 13 [13] 789320421489600000,
xp 15 13 [1,1,1,1,2] 272251980,
xm 15 13 [2,2,2,2] 10618367760,
xm 15 13 [1,2,2,3] 153531275040,
xm 15 13 [1,1,3,3] 92765930400,
xm 15 13 [1,1,2,4] 207063885600,
xm 15 13 [1,1,1,5] 99848548800,
xp 15 13 [3,3,4] 14490610992000,
xp 15 13 [2,4,4] 16163443296000,
xp 15 13 [2,3,5] 34521046560000,
xp 15 13 [1,4,5] 46759737024000,
xp 15 13 [2,2,6] 21558724387200,
xp 15 13 [1,3,6] 52349007110400,
xp 15 13 [1,2,7] 67772299795200,
xp 15 13 [1,1,8] 54986150419200,
xm 15 13 [6,6] 4434242052240000,
xm 15 13 [5,7] 9169467154848000,
xm 15 13 [4,8] 10189134027072000,
xm 15 13 [3,9] 12365205364512000,
xm 15 13 [2,10] 17100652304736000,
xm 15 13 [1,11] 29448351957024000,
xp 15 13 [14] 10261165479364800000,
xm 16 13 [1,1,1,2,2] 1794592800,
xm 16 13 [1,1,1,1,3] 1065764700,
xp 16 13 [2,2,2,3] 202257712800,
xp 16 13 [1,2,3,3] 723140589600,
xp 16 13 [1,2,2,4] 803767536000,
xp 16 13 [1,1,3,4] 958763520000,
xp 16 13 [1,1,2,5] 1140193454400,
xp 16 13 [1,1,1,6] 566334568800,
xm 16 13 [3,4,4] 86184994896000,
xm 16 13 [3,3,5] 92031475536000,
xm 16 13 [2,4,5] 204705525024000,
xm 16 13 [1,5,5] 145955529720000,
xm 16 13 [2,3,6] 228808765785600,
xm 16 13 [1,4,6] 305524883664000,
xm 16 13 [2,2,7] 147260479766400,
xm 16 13 [1,3,7] 353551300502400,
xm 16 13 [1,2,8] 468272742537600,
xm 16 13 [1,1,9] 381786429024000,
xp 16 13 [6,7] 66477588008832000,
xp 16 13 [5,8] 70498032853248000,
xp 16 13 [4,9] 79874618503680000,
xp 16 13 [3,10] 98485720324992000,
xp 16 13 [2,11] 137665325685888000,
xp 16 13 [1,12] 236338549390944000,
xm 16 13 [15] 92350489314283200000,
xm 17 13 [1,1,1,1,1,1] 1576575,
xp 17 13 [1,1,2,2,2] 4722157440,
xp 17 13 [1,1,1,2,3] 11085394320,
xp 17 13 [1,1,1,1,4] 3585582000,
xm 17 13 [2,2,3,3] 1124549917920,
xm 17 13 [1,3,3,3] 886201430400,
xm 17 13 [2,2,2,4] 827973226080,
xm 17 13 [1,2,3,4] 5877158601600,
xm 17 13 [1,1,4,4] 1919173370400,
xm 17 13 [1,2,2,5] 3470303865600,
xm 17 13 [1,1,3,5] 4101132578400,
xm 17 13 [1,1,2,6] 5076448977600,
xm 17 13 [1,1,1,7] 2564365003200,
xp 17 13 [4,4,4] 132457597272000,
xp 17 13 [3,4,5] 848408232672000,
xp 17 13 [2,5,5] 501498957960000,
xp 17 13 [3,3,6] 473564542651200,
xp 17 13 [2,4,6] 1048855253846400,
xp 17 13 [1,5,6] 1477053225648000,
xp 17 13 [2,3,7] 1211137642915200,
xp 17 13 [1,4,7] 1597435289049600,
xp 17 13 [2,2,8] 795591031435200,
xp 17 13 [1,3,8] 1894924461830400,
xp 17 13 [1,2,9] 2548396586736000,
xp 17 13 [1,1,10] 2081366783496000,
xm 17 13 [7,7] 192799422335520000,
xm 17 13 [6,8] 395445632662080000,
xm 17 13 [5,9] 427689846904320000,
xm 17 13 [4,10] 492175426526784000,
xm 17 13 [3,11] 614622318133824000,
xm 17 13 [2,12] 865016740171584000,
xm 17 13 [1,13] 1479804198897024000,
xp 18 13 [1,1,1,1,1,2] 16576560,
xm 18 13 [1,2,2,2,2] 5278373100,
xm 18 13 [1,1,2,2,3] 36940503600,
xm 18 13 [1,1,1,3,3] 14308093800,
xm 18 13 [1,1,1,2,4] 31357085760,
xm 18 13 [1,1,1,1,5] 10608998400,
xp 18 13 [2,3,3,3] 2318796136800,
xp 18 13 [2,2,3,4] 7643630966400,
xp 18 13 [1,3,3,4] 8981921520000,
xp 18 13 [1,2,4,4] 9872666575200,
xp 18 13 [2,2,2,5] 2985969523680,
xp 18 13 [1,2,3,5] 21061118707200,
xp 18 13 [1,1,4,5] 13577737773600,
xp 18 13 [1,2,2,6] 12920601133440,
xp 18 13 [1,1,3,6] 15157022680800,
xp 18 13 [1,1,2,7] 19256919121440,
xp 18 13 [1,1,1,8] 9813655051200,
xm 18 13 [4,4,5] 1617909517224000,
xm 18 13 [3,5,5] 1725501625848000,
xm 18 13 [3,4,6] 3607087419936000,
xm 18 13 [2,5,6] 4242180492950400,
xm 18 13 [1,6,6] 3086190513806400,
xm 18 13 [3,3,7] 2077781316811200,
xm 18 13 [2,4,7] 4582287136627200,
xm 18 13 [1,5,7] 6378320021673600,
xm 18 13 [2,3,8] 5418695900217600,
xm 18 13 [1,4,8] 7070840496720000,
xm 18 13 [2,2,9] 3610998378187200,
xm 18 13 [1,3,9] 8545671454320000,
xm 18 13 [1,2,10] 11610722659536000,
xm 18 13 [1,1,11] 9477263733537600,
xp 18 13 [7,8] 1892507537112192000,
xp 18 13 [6,9] 1979414594853696000,
xp 18 13 [5,10] 2174618059758144000,
xp 18 13 [4,11] 2534598442696320000,
xp 18 13 [3,12] 3196894785372288000,
xp 18 13 [2,13] 4518802215895968000,
xp 18 13 [1,14] 7698505177595232000,
xp 14 14 [1,1,1,1,1] 11711700,
xm 14 14 [1,2,2,2] 7468718400,
xm 14 14 [1,1,2,3] 27586072800,
xm 14 14 [1,1,1,4] 12648636000,
xp 14 14 [3,3,3] 560153880000,
xp 14 14 [2,3,4] 3743996256000,
xp 14 14 [1,4,4] 2577510936000,
xp 14 14 [2,2,5] 2231219390400,
xp 14 14 [1,3,5] 5514805296000,
xp 14 14 [1,2,6] 6901095801600,
xp 14 14 [1,1,7] 5546848507200,
xm 14 14 [5,6] 841488455808000,
xm 14 14 [4,7] 911612493792000,
xm 14 14 [3,8] 1085252968800000,
xm 14 14 [2,9] 1475944037568000,
xm 14 14 [1,10] 2549357883072000,
xp 14 14 [13] 789320421489600000,
xm 15 14 [1,1,1,1,2] 556215660,
xp 15 14 [2,2,2,2] 22406155200,
xp 15 14 [1,2,2,3] 322498519200,
xp 15 14 [1,1,3,3] 193482432000,
xp 15 14 [1,1,2,4] 431091460800,
xp 15 14 [1,1,1,5] 205880875200,
xm 15 14 [3,3,4] 30483212760000,
xm 15 14 [2,4,4] 33940506600000,
xm 15 14 [2,3,5] 72552576096000,
xm 15 14 [1,4,5] 97585199712000,
xm 15 14 [2,2,6] 45246700699200,
xm 15 14 [1,3,6] 109295890704000,
xm 15 14 [1,2,7] 141361155936000,
xm 15 14 [1,1,8] 113812426728000,
xp 15 14 [6,6] 9256373013888000,
xp 15 14 [5,7] 19143862369632000,
xp 15 14 [4,8] 21270958188480000,
xp 15 14 [3,9] 25829020657440000,
xp 15 14 [2,10] 35691010363008000,
xp 15 14 [1,11] 61086536967456000,
xm 15 14 [14] 21311651380219200000,
xp 16 14 [1,1,1,2,2] 5764318560,
xp 16 14 [1,1,1,1,3] 3372969600,
xm 16 14 [2,2,2,3] 674130600000,
xm 16 14 [1,2,3,3] 2390490273600,
xm 16 14 [1,2,2,4] 2647484611200,
xm 16 14 [1,1,3,4] 3128058648000,
xm 16 14 [1,1,2,5] 3705726024000,
xm 16 14 [1,1,1,6] 1812841430400,
xp 16 14 [3,4,4] 285007498776000,
xp 16 14 [3,3,5] 304402073976000,
xp 16 14 [2,4,5] 675223108560000,
xp 16 14 [1,5,5] 476470226232000,
xp 16 14 [2,3,6] 754953104505600,
xp 16 14 [1,4,6] 997475326848000,
xp 16 14 [2,2,7] 484690672065600,
xp 16 14 [1,3,7] 1154597850806400,
xp 16 14 [1,2,8] 1525142172153600,
xp 16 14 [1,1,9] 1228562014680000,
xm 16 14 [6,7] 216893649484512000,
xm 16 14 [5,8] 230030219266848000,
xm 16 14 [4,9] 260677763105760000,
xm 16 14 [3,10] 321554535093792000,
xm 16 14 [2,11] 448588935194400000,
xm 16 14 [1,12] 762552163717344000,
xp 16 14 [15] 298363119323068800000,
xp 17 14 [1,1,1,1,1,1] 6306300,
xm 17 14 [1,1,2,2,2] 21385924560,
xm 17 14 [1,1,1,2,3] 49608599040,
xm 17 14 [1,1,1,1,4] 15715299600,
xp 17 14 [2,2,3,3] 5248238767200,
xp 17 14 [1,3,3,3] 4101401304000,
xp 17 14 [2,2,2,4] 3849512752800,
xp 17 14 [1,2,3,4] 27075067905600,
xp 17 14 [1,1,4,4] 8718477768000,
xp 17 14 [1,2,2,5] 15895248969600,
xp 17 14 [1,1,3,5] 18609840849600,
xp 17 14 [1,1,2,6] 22888193328000,
xp 17 14 [1,1,1,7] 11361977827200,
xm 17 14 [4,4,4] 611027497080000,
xm 17 14 [3,4,5] 3911148953712000,
xm 17 14 [2,5,5] 2302528508280000,
xm 17 14 [3,3,6] 2182280844744000,
xm 17 14 [2,4,6] 4816908047952000,
xm 17 14 [1,5,6] 6699134057616000,
xm 17 14 [2,3,7] 5559834440160000,
xm 17 14 [1,4,7] 7246864104480000,
xm 17 14 [2,2,8] 3638268837403200,
xm 17 14 [1,3,8] 8592977352960000,
xm 17 14 [1,2,9] 11504238009264000,
xm 17 14 [1,1,10] 9264071817000000,
xp 17 14 [7,7] 872413156558944000,
xp 17 14 [6,8] 1789495325313696000,
xp 17 14 [5,9] 1935657195151680000,
xp 17 14 [4,10] 2228340054900960000,
xp 17 14 [3,11] 2782526077146816000,
xp 17 14 [2,12] 3903361075662048000,
xp 17 14 [1,13] 6598718723653056000,
xm 18 14 [1,1,1,1,1,2] 89189100,
xp 18 14 [1,2,2,2,2] 31626454860,
xp 18 14 [1,1,2,2,3] 219346807680,
xp 18 14 [1,1,1,3,3] 84329645400,
xp 18 14 [1,1,1,2,4] 183191168160,
xp 18 14 [1,1,1,1,5] 60681020400,
xm 18 14 [2,3,3,3] 14193548740800,
xm 18 14 [2,2,3,4] 46579449945600,
xm 18 14 [1,3,3,4] 54333443736000,
xm 18 14 [1,2,4,4] 59418454867200,
xm 18 14 [2,2,2,5] 18076207406400,
xm 18 14 [1,2,3,5] 126486267336000,
xm 18 14 [1,1,4,5] 80506881655200,
xm 18 14 [1,2,2,6] 77004895968000,
xm 18 14 [1,1,3,6] 89648926567200,
xm 18 14 [1,1,2,7] 112905616824000,
xm 18 14 [1,1,1,8] 56544462374400,
xp 18 14 [4,4,5] 9736689074112000,
xp 18 14 [3,5,5] 10370359791792000,
xp 18 14 [3,4,6] 21680233022448000,
xp 18 14 [2,5,6] 25363208366496000,
xp 18 14 [1,6,6] 18215182001016000,
xp 18 14 [3,3,7] 12473669947939200,
xp 18 14 [2,4,7] 27400880274768000,
xp 18 14 [1,5,7] 37649365593840000,
xp 18 14 [2,3,8] 32363579225577600,
xp 18 14 [1,4,8] 41744394579888000,
xp 18 14 [2,2,9] 21451611067286400,
xp 18 14 [1,3,9] 50383008211536000,
xp 18 14 [1,2,10] 68030891104176000,
xp 18 14 [1,1,11] 54723463546752000,
xm 18 14 [7,8] 11118025974287232000,
xm 18 14 [6,9] 11629744454135808000,
xm 18 14 [5,10] 12779544323145600000,
xm 18 14 [4,11] 14900160802310784000,
xm 18 14 [3,12] 18780139002328704000,
xm 18 14 [2,13] 26425074980304000000,
xm 18 14 [1,14] 44454526138294272000,
xp 15 15 [1,1,1,1,2] 282702420,
xm 15 15 [2,2,2,2] 11860528680,
xm 15 15 [1,2,2,3] 171243072000,
xm 15 15 [1,1,3,3] 102277890000,
xm 15 15 [1,1,2,4] 226702476000,
xm 15 15 [1,1,1,5] 107221514400,
xp 15 15 [3,3,4] 16442931960000,
xp 15 15 [2,4,4] 18194753304000,
xp 15 15 [2,3,5] 39014761968000,
xp 15 15 [1,4,5] 52096458960000,
xp 15 15 [2,2,6] 24200148772800,
xp 15 15 [1,3,6] 58401671328000,
xp 15 15 [1,2,7] 75284681472000,
xp 15 15 [1,1,8] 60131615544000,
xm 15 15 [6,6] 4982748580656000,
xm 15 15 [5,7] 10311666228864000,
xm 15 15 [4,8] 11447871795360000,
xm 15 15 [3,9] 13921828240320000,
xm 15 15 [2,10] 19165438996704000,
xm 15 15 [1,11] 32628763911744000,
xp 15 15 [14] 11475504589348800000,
xm 16 15 [1,1,1,2,2] 6139916640,
xm 16 15 [1,1,1,1,3] 3566405700,
xp 16 15 [2,2,2,3] 750939789600,
xp 16 15 [1,2,3,3] 2662190388000,
xp 16 15 [1,2,2,4] 2929034908800,
xp 16 15 [1,1,3,4] 3452753304000,
xp 16 15 [1,1,2,5] 4060795939200,
xp 16 15 [1,1,1,6] 1962873712800,
xm 16 15 [3,4,4] 321174813960000,
xm 16 15 [3,3,5] 343060197480000,
xm 16 15 [2,4,5] 756898270128000,
xm 16 15 [1,5,5] 530722614240000,
xm 16 15 [2,3,6] 846368883360000,
xm 16 15 [1,4,6] 1111169050992000,
xm 16 15 [2,2,7] 540455978462400,
xm 16 15 [1,3,7] 1286214497568000,
xm 16 15 [1,2,8] 1689503607792000,
xm 16 15 [1,1,9] 1349078218488000,
xp 16 15 [6,7] 242979791614560000,
xp 16 15 [5,8] 257705839591200000,
xp 16 15 [4,9] 292066618203360000,
xp 16 15 [3,10] 360341931549600000,
xp 16 15 [2,11] 500360510666016000,
xp 16 15 [1,12] 845180020548864000,
xm 16 15 [15] 332789633091115200000,
xm 17 15 [1,1,1,1,1,1] 9234225,
xp 17 15 [1,1,2,2,2] 35960118480,
xp 17 15 [1,1,1,2,3] 83198681280,
xp 17 15 [1,1,1,1,4] 26029703700,
xm 17 15 [2,2,3,3] 9200423232000,
xm 17 15 [1,3,3,3] 7188873120000,
xm 17 15 [2,2,2,4] 6718177065600,
xm 17 15 [1,2,3,4] 47193033888000,
xm 17 15 [1,1,4,4] 15098471388000,
xm 17 15 [1,2,2,5] 27484707650400,
xm 17 15 [1,1,3,5] 32149200283200,
xm 17 15 [1,1,2,6] 39184501356000,
xm 17 15 [1,1,1,7] 19227742934400,
xp 17 15 [4,4,4] 1078624965600000,
xp 17 15 [3,4,5] 6893458266240000,
xp 17 15 [2,5,5] 4034647228248000,
xp 17 15 [3,3,6] 3841157593728000,
xp 17 15 [2,4,6] 8442583478784000,
xp 17 15 [1,5,6] 11661602254848000,
xp 17 15 [2,3,7] 9730206486000000,
xp 17 15 [1,4,7] 12617026085664000,
xp 17 15 [2,2,8] 6330652436908800,
xp 17 15 [1,3,8] 14938241494176000,
xp 17 15 [1,2,9] 19865492350704000,
xp 17 15 [1,1,10] 15859517545872000,
xm 17 15 [7,7] 1522654481235888000,
xm 17 15 [6,8] 3123439400233152000,
xm 17 15 [5,9] 3378735522882720000,
xm 17 15 [4,10] 3890609125603200000,
xm 17 15 [3,11] 4853291043785184000,
xm 17 15 [2,12] 6773319568727712000,
xm 17 15 [1,13] 11373500104110144000,
xp 18 15 [1,1,1,1,1,2] 187657470,
xm 18 15 [1,2,2,2,2] 74667724560,
xm 18 15 [1,1,2,2,3] 517104965520,
xm 18 15 [1,1,1,3,3] 199045360800,
xm 18 15 [1,1,1,2,4] 429343200000,
xm 18 15 [1,1,1,1,5] 140570129700,
xp 18 15 [2,3,3,3] 34746637068000,
xp 18 15 [2,2,3,4] 113640599872800,
xp 18 15 [1,3,3,4] 132516655128000,
xp 18 15 [1,2,4,4] 144335639448000,
xp 18 15 [2,2,2,5] 43800280524000,
xp 18 15 [1,2,3,5] 306201293798400,
xp 18 15 [1,1,4,5] 194163049080000,
xp 18 15 [1,2,2,6] 184834128679200,
xp 18 15 [1,1,3,6] 215246898266400,
xp 18 15 [1,1,2,7] 268439212641600,
xp 18 15 [1,1,1,8] 133124364172800,
xm 18 15 [4,4,5] 23863876676640000,
xm 18 15 [3,5,5] 25358759407800000,
xm 18 15 [3,4,6] 53001789592752000,
xm 18 15 [2,5,6] 61661423311488000,
xm 18 15 [1,6,6] 43996213733472000,
xm 18 15 [3,3,7] 30417443744688000,
xm 18 15 [2,4,7] 66601396749888000,
xm 18 15 [1,5,7] 90942786030096000,
xm 18 15 [2,3,8] 78458629000752000,
xm 18 15 [1,4,8] 100810539621792000,
xm 18 15 [2,2,9] 51684755234112000,
xm 18 15 [1,3,9] 121319341599456000,
xm 18 15 [1,2,10] 162648000811296000,
xm 18 15 [1,1,11] 129804805546416000,
xp 18 15 [7,8] 26835768096096960000,
xp 18 15 [6,9] 28072756126134720000,
xp 18 15 [5,10] 30852855486573120000,
xp 18 15 [4,11] 35972420252408640000,
xp 18 15 [3,12] 45249601471218144000,
xp 18 15 [2,13] 63326570246555616000,
xp 18 15 [1,14] 105829653435105600000,
xp 16 16 [1,1,1,2,2] 2170190880,
xp 16 16 [1,1,1,1,3] 1259200800,
xm 16 16 [2,2,2,3] 279066902400,
xm 16 16 [1,2,3,3] 994840704000,
xm 16 16 [1,2,2,4] 1085317833600]
def extC7_1 : PL := [
xm 16 16 [1,1,3,4] 1283458176000,
xm 16 16 [1,1,2,5] 1495263369600,
xm 16 16 [1,1,1,6] 716366851200,
xp 16 16 [3,4,4] 122352310080000,
xp 16 16 [3,3,5] 130689599040000,
xp 16 16 [2,4,5] 286380686592000,
xp 16 16 [1,5,5] 200207917728000,
xp 16 16 [2,3,6] 320224544640000,
xp 16 16 [1,4,6] 419218607808000,
xp 16 16 [2,2,7] 203025786163200,
xp 16 16 [1,3,7] 485167947264000,
xp 16 16 [1,2,8] 632634178176000,
xp 16 16 [1,1,9] 502302632832000,
xm 16 16 [6,7] 92563730138880000,
xm 16 16 [5,8] 98173653177600000,
xm 16 16 [4,9] 111263473601280000,
xm 16 16 [3,10] 137273116780800000,
xm 16 16 [2,11] 189436901157504000,
xm 16 16 [1,12] 318966406222464000,
xp 16 16 [15] 126777003082329600000,
xp 17 16 [1,1,1,1,1,1] 5855850,
xm 17 16 [1,1,2,2,2] 26661286080,
xm 17 16 [1,1,1,2,3] 61910362800,
xm 17 16 [1,1,1,1,4] 19261242000,
xp 17 16 [2,2,3,3] 7170525648000,
xp 17 16 [1,3,3,3] 5627716380000,
xp 17 16 [2,2,2,4] 5209421817600,
xp 17 16 [1,2,3,4] 36740720016000,
xp 17 16 [1,1,4,4] 11738042316000,
xp 17 16 [1,2,2,5] 21211762572000,
xp 17 16 [1,1,3,5] 24913921032000,
xp 17 16 [1,1,2,6] 30061721289600,
xp 17 16 [1,1,1,7] 14646277245600,
xm 17 16 [4,4,4] 856466170560000,
xm 17 16 [3,4,5] 5463899400960000,
xm 17 16 [2,5,5] 3178049932512000,
xm 17 16 [3,3,6] 3038708312640000,
xm 17 16 [2,4,6] 6649415188416000,
xm 17 16 [1,5,6] 9159278192064000,
xm 17 16 [2,3,7] 7648680783744000,
xm 17 16 [1,4,7] 9909565441776000,
xm 17 16 [2,2,8] 4943289326976000,
xm 17 16 [1,3,8] 11706818563440000,
xm 17 16 [1,2,9] 15452686817568000,
xm 17 16 [1,1,10] 12278317667616000,
xp 17 16 [7,7] 1203328491805440000,
xp 17 16 [6,8] 2468366137036800000,
xp 17 16 [5,9] 2670323366430720000,
xp 17 16 [4,10] 3074917815889920000,
xp 17 16 [3,11] 3829919958184320000,
xp 17 16 [2,12] 5313947945289984000,
xp 17 16 [1,13] 8895033980632800000,
xm 18 16 [1,1,1,1,1,2] 193152960,
xp 18 16 [1,2,2,2,2] 87113426400,
xp 18 16 [1,1,2,2,3] 605537000640,
xp 18 16 [1,1,1,3,3] 234452275200,
xp 18 16 [1,1,1,2,4] 503249432400,
xp 18 16 [1,1,1,1,5] 164014250400,
xm 18 16 [2,3,3,3] 42475185324000,
xm 18 16 [2,2,3,4] 138524933289600,
xm 18 16 [1,3,3,4] 162114787692000,
xm 18 16 [1,2,4,4] 176040472608000,
xm 18 16 [2,2,2,5] 53047146952800,
xm 18 16 [1,2,3,5] 372097833307200,
xm 18 16 [1,1,4,5] 236291223168000,
xm 18 16 [1,2,2,6] 222730220512800,
xm 18 16 [1,1,3,6] 260537382705600,
xm 18 16 [1,1,2,7] 321850640311200,
xm 18 16 [1,1,1,8] 158827235767200,
xp 18 16 [4,4,5] 29541756404160000,
xp 18 16 [3,5,5] 31317533065728000,
xp 18 16 [3,4,6] 65415382800768000,
xp 18 16 [2,5,6] 75719467631808000,
xp 18 16 [1,6,6] 53889097245984000,
xp 18 16 [3,3,7] 37426761275904000,
xp 18 16 [2,4,7] 81733932968688000,
xp 18 16 [1,5,7] 111395230874928000,
xp 18 16 [2,3,8] 95978305318896000,
xp 18 16 [1,4,8] 123397158332448000,
xp 18 16 [2,2,9] 62832251113632000,
xp 18 16 [1,3,9] 147966324249744000,
xp 18 16 [1,2,10] 196991509819104000,
xp 18 16 [1,1,11] 156638431469520000,
xm 18 16 [7,8] 32952687929441280000,
xm 18 16 [6,9] 34472977072934400000,
xm 18 16 [5,10] 37890270191854080000,
xm 18 16 [4,11] 44160761668383360000,
xm 18 16 [3,12] 55409132046812544000,
xm 18 16 [2,13] 77127939011227104000,
xm 18 16 [1,14] 128527675299223200000,
xm 17 17 [1,1,1,1,1,1] 1351350,
xp 17 17 [1,1,2,2,2] 7364409624,
xp 17 17 [1,1,1,2,3] 17232106320,
xp 17 17 [1,1,1,1,4] 5362156800,
xm 17 17 [2,2,3,3] 2095041218400,
xm 17 17 [1,3,3,3] 1654899012000,
xm 17 17 [2,2,2,4] 1513289887200,
xm 17 17 [1,2,3,4] 10750220208000,
xm 17 17 [1,1,4,4] 3440428336800,
xm 17 17 [1,2,2,5] 6154571535840,
xm 17 17 [1,1,3,5] 7277028595200,
xm 17 17 [1,1,2,6] 8691844281120,
xm 17 17 [1,1,1,7] 4218179565600,
xp 17 17 [4,4,4] 256715809056000,
xp 17 17 [3,4,5] 1635457122432000,
xp 17 17 [2,5,5] 945660665073600,
xp 17 17 [3,3,6] 907534992672000,
xp 17 17 [2,4,6] 1977059045808000,
xp 17 17 [1,5,6] 2723091044889600,
xp 17 17 [2,3,7] 2270052648864000,
xp 17 17 [1,4,7] 2945465681558400,
xp 17 17 [2,2,8] 1456779602678400,
xp 17 17 [1,3,8] 3470781826512000,
xp 17 17 [1,2,9] 4547783992752000,
xp 17 17 [1,1,10] 3605304935232000,
xm 17 17 [7,7] 361026597156825600,
xm 17 17 [6,8] 740445111229824000,
xm 17 17 [5,9] 801197047018368000,
xm 17 17 [4,10] 922264155356544000,
xm 17 17 [3,11] 1146864093350976000,
xm 17 17 [2,12] 1581798124665158400,
xm 17 17 [1,13] 2645235361248480000,
xp 18 17 [1,1,1,1,1,2] 97207110,
xm 18 17 [1,2,2,2,2] 50339347344,
xm 18 17 [1,1,2,2,3] 352422968040,
xm 18 17 [1,1,1,3,3] 137550441600,
xm 18 17 [1,1,1,2,4] 294429975840,
xm 18 17 [1,1,1,1,5] 96032336400,
xp 18 17 [2,3,3,3] 25915109220000,
xp 18 17 [2,2,3,4] 84280585989600,
xp 18 17 [1,3,3,4] 99193502772000,
xp 18 17 [1,2,4,4] 107454109744800,
xp 18 17 [2,2,2,5] 32083323592320,
xp 18 17 [1,2,3,5] 226411008969600,
xp 18 17 [1,1,4,5] 144355940164800,
xp 18 17 [1,2,2,6] 134456440678560,
xp 18 17 [1,1,3,6] 158288339008800,
xp 18 17 [1,1,2,7] 193856705602560,
xp 18 17 [1,1,1,8] 95476120740000,
xm 18 17 [4,4,5] 18379526701536000,
xm 18 17 [3,5,5] 19447417427256000,
xm 18 17 [3,4,6] 40580813473200000,
xm 18 17 [2,5,6] 46767339178560000,
xm 18 17 [1,6,6] 33275833880889600,
xm 18 17 [3,3,7] 23148218149056000,
xm 18 17 [2,4,7] 50428533182227200,
xm 18 17 [1,5,7] 68783818870166400,
xm 18 17 [2,3,8] 59030931239280000,
xm 18 17 [1,4,8] 76109372539200000,
xm 18 17 [2,2,9] 38408605223788800,
xm 18 17 [1,3,9] 90928818044064000,
xm 18 17 [1,2,10] 120277397560320000,
xm 18 17 [1,1,11] 95519210426640000,
xp 18 17 [7,8] 20456584360692480000,
xp 18 17 [6,9] 21400734408109056000,
xp 18 17 [5,10] 23523121291557888000,
xp 18 17 [4,11] 27395595915944256000,
xp 18 17 [3,12] 34286864770398240000,
xp 18 17 [2,13] 47480659200374400000,
xp 18 17 [1,14] 79071691146608160000,
xm 18 18 [1,1,1,1,1,2] 19099080,
xp 18 18 [1,2,2,2,2] 11545563744,
xp 18 18 [1,1,2,2,3] 81584628840,
xp 18 18 [1,1,1,3,3] 32121975600,
xp 18 18 [1,1,1,2,4] 68689661040,
xp 18 18 [1,1,1,1,5] 22516193700,
xm 18 18 [2,3,3,3] 6311808360000,
xm 18 18 [2,2,3,4] 20460433593600,
xm 18 18 [1,3,3,4] 24243847992000,
xm 18 18 [1,2,4,4] 26203488292800,
xm 18 18 [2,2,2,5] 7746219280800,
xm 18 18 [1,2,3,5] 55089320832000,
xm 18 18 [1,1,4,5] 35298622195200,
xm 18 18 [1,2,2,6] 32476054010400,
xm 18 18 [1,1,3,6] 38505950683200,
xm 18 18 [1,1,2,7] 46796580230400,
xm 18 18 [1,1,1,8] 23042441822400,
xp 18 18 [4,4,5] 4582867417128000,
xp 18 18 [3,5,5] 4843785603384000,
xp 18 18 [3,4,6] 10094074662672000,
xp 18 18 [2,5,6] 11588266984694400,
xp 18 18 [1,6,6] 8253958881168000,
xp 18 18 [3,3,7] 5743011986712000,
xp 18 18 [2,4,7] 12477403825286400,
xp 18 18 [1,5,7] 17060328453168000,
xp 18 18 [2,3,8] 14566371595776000,
xp 18 18 [1,4,8] 18849199745376000,
xp 18 18 [2,2,9] 9420496655169600,
xp 18 18 [1,3,9] 22444498636560000,
xp 18 18 [1,2,10] 29513720107872000,
xp 18 18 [1,1,11] 23439384690321600,
xm 18 18 [7,8] 5114146090173120000,
xm 18 18 [6,9] 5350183602027264000,
xm 18 18 [5,10] 5880780322889472000,
xm 18 18 [4,11] 6841692140355072000,
xm 18 18 [3,12] 8544089977847424000,
xm 18 18 [2,13] 11773017671294880000,
xm 18 18 [1,14] 19617648321791520000]
/-- row 7 -/
def extC7 : PL := extC7_0 ++ extC7_1
def extC8_0 : PL := [
xm 15 15 [1,1,1,1,2] 50270220,
xp 15 15 [2,2,2,2] 1694361240,
xp 15 15 [1,2,2,3] 25630862400,
xp 15 15 [1,1,3,3] 16054038000,
xp 15 15 [1,1,2,4] 35610775200,
xp 15 15 [1,1,1,5] 17708090400,
xm 15 15 [3,3,4] 2348990280000,
xm 15 15 [2,4,4] 2599250472000,
xm 15 15 [2,3,5] 5573537424000,
xm 15 15 [1,4,5] 7769269872000,
xm 15 15 [2,2,6] 3457164110400,
xm 15 15 [1,3,6] 8710045344000,
xm 15 15 [1,2,7] 11231988768000,
xm 15 15 [1,1,8] 9385287912000,
xp 15 15 [6,6] 711821225808000,
xp 15 15 [5,7] 1473095175552000,
xp 15 15 [4,8] 1635410256480000,
xp 15 15 [3,9] 1988832605760000,
xp 15 15 [2,10] 2737919856672000,
xp 15 15 [1,11] 4857356439936000,
xm 15 15 [14] 1639357798478400000,
xp 16 15 [1,1,1,2,2] 1128184200,
xp 16 15 [1,1,1,1,3] 693049500,
xm 16 15 [2,2,2,3] 110779812000,
xm 16 15 [1,2,3,3] 408648240000,
xm 16 15 [1,2,2,4] 454767112800,
xm 16 15 [1,1,3,4] 559783224000,
xm 16 15 [1,1,2,5] 666680414400,
xm 16 15 [1,1,1,6] 342486144000,
xp 16 15 [3,4,4] 45882116280000,
xp 16 15 [3,3,5] 49008599640000,
xp 16 15 [2,4,5] 109109080080000,
xp 16 15 [1,5,5] 80232509448000,
xp 16 15 [2,3,6] 122010688800000,
xp 16 15 [1,4,6] 167981669856000,
xp 16 15 [2,2,7] 78639099739200,
xp 16 15 [1,3,7] 194485427136000,
xp 16 15 [1,2,8] 258032174400000,
xp 16 15 [1,1,9] 217177080120000,
xm 16 15 [6,7] 34711398802080000,
xm 16 15 [5,8] 36815119941600000,
xm 16 15 [4,9] 41723802600480000,
xm 16 15 [3,10] 51477418792800000,
xm 16 15 [2,11] 72068386309920000,
xm 16 15 [1,12] 127505606548320000,
xp 16 15 [15] 47541376155873600000,
xp 17 15 [1,1,1,1,1,1] 2927925,
xm 17 15 [1,1,2,2,2] 6681537720,
xm 17 15 [1,1,1,2,3] 16173265680,
xm 17 15 [1,1,1,1,4] 5462156700,
xp 17 15 [2,2,3,3] 1377366962400,
xp 17 15 [1,3,3,3] 1113496956000,
xp 17 15 [2,2,2,4] 1022093186400,
xp 17 15 [1,2,3,4] 7436248934400,
xp 17 15 [1,1,4,4] 2514592080000,
xp 17 15 [1,2,2,5] 4421184768000,
xp 17 15 [1,1,3,5] 5372362195200,
xp 17 15 [1,1,2,6] 6699106814400,
xp 17 15 [1,1,1,7] 3515477565600,
xm 17 15 [4,4,4] 154089280800000,
xm 17 15 [3,4,5] 986741263872000,
xm 17 15 [2,5,5] 586677703248000,
xm 17 15 [3,3,6] 550938495744000,
xm 17 15 [2,4,6] 1227656089296000,
xm 17 15 [1,5,6] 1783400359104000,
xm 17 15 [2,3,7] 1417943230704000,
xm 17 15 [1,4,7] 1929672016272000,
xm 17 15 [2,2,8] 937749635222400,
xm 17 15 [1,3,8] 2290263223248000,
xm 17 15 [1,2,9] 3100737223584000,
xm 17 15 [1,1,10] 2620746784656000,
xp 17 15 [7,7] 217522068747984000,
xp 17 15 [6,8] 446205628604736000,
xp 17 15 [5,9] 482676503268960000,
xp 17 15 [4,10] 555801303657600000,
xp 17 15 [3,11] 694503918684576000,
xp 17 15 [2,12] 983403489676608000,
xp 17 15 [1,13] 1735290588167136000,
xm 18 15 [1,1,1,1,1,2] 60990930,
xp 18 15 [1,2,2,2,2] 13888017000,
xp 18 15 [1,1,2,2,3] 99708780600,
xp 18 15 [1,1,1,3,3] 39791466000,
xp 18 15 [1,1,1,2,4] 88429255200,
xp 18 15 [1,1,1,1,5] 31494563100,
xm 18 15 [2,3,3,3] 5221384740000,
xm 18 15 [2,2,3,4] 17387954812800,
xm 18 15 [1,3,3,4] 20887114248000,
xm 18 15 [1,2,4,4] 23200084908000,
xm 18 15 [2,2,2,5] 6868403942400,
xm 18 15 [1,2,3,5] 49532447764800,
xm 18 15 [1,1,4,5] 33111534456000,
xm 18 15 [1,2,2,6] 30747666549600,
xm 18 15 [1,1,3,6] 37006017048000,
xm 18 15 [1,1,2,7] 47609141580000,
xm 18 15 [1,1,1,8] 25322569272000,
xp 18 15 [4,4,5] 3412394425440000,
xp 18 15 [3,5,5] 3641806245168000,
xp 18 15 [3,4,6] 7615420708896000,
xp 18 15 [2,5,6] 9040933661760000,
xp 18 15 [1,6,6] 6794553421656000,
xp 18 15 [3,3,7] 4391867175696000,
xp 18 15 [2,4,7] 9770744391408000,
xp 18 15 [1,5,7] 14045185522368000,
xp 18 15 [2,3,8] 11569707349200000,
xp 18 15 [1,4,8] 15579780312096000,
xp 18 15 [2,2,9] 7790446696032000,
xp 18 15 [1,3,9] 18857092494240000,
xp 18 15 [1,2,10] 25898689344528000,
xp 18 15 [1,1,11] 21931014609504000,
xm 18 15 [7,8] 3833681156585280000,
xm 18 15 [6,9] 4010393732304960000,
xm 18 15 [5,10] 4407550783796160000,
xm 18 15 [4,11] 5140878223440960000,
xm 18 15 [3,12] 6493546397257920000,
xm 18 15 [2,13] 9265407409177920000,
xm 18 15 [1,14] 16302502551535200000,
xm 16 16 [1,1,1,2,2] 1128184200,
xm 16 16 [1,1,1,1,3] 693049500,
xp 16 16 [2,2,2,3] 110779812000,
xp 16 16 [1,2,3,3] 408648240000,
xp 16 16 [1,2,2,4] 454767112800,
xp 16 16 [1,1,3,4] 559783224000,
xp 16 16 [1,1,2,5] 666680414400,
xp 16 16 [1,1,1,6] 342486144000,
xm 16 16 [3,4,4] 45882116280000,
xm 16 16 [3,3,5] 49008599640000,
xm 16 16 [2,4,5] 109109080080000,
xm 16 16 [1,5,5] 80232509448000,
xm 16 16 [2,3,6] 122010688800000,
xm 16 16 [1,4,6] 167981669856000,
xm 16 16 [2,2,7] 78639099739200,
xm 16 16 [1,3,7] 194485427136000,
xm 16 16 [1,2,8] 258032174400000,
xm 16 16 [1,1,9] 217177080120000,
xp 16 16 [6,7] 34711398802080000,
xp 16 16 [5,8] 36815119941600000,
xp 16 16 [4,9] 41723802600480000,
xp 16 16 [3,10] 51477418792800000,
xp 16 16 [2,11] 72068386309920000,
xp 16 16 [1,12] 127505606548320000,
xm 16 16 [15] 47541376155873600000,
xm 17 16 [1,1,1,1,1,1] 5855850,
xp 17 16 [1,1,2,2,2] 13888017000,
xp 17 16 [1,1,1,2,3] 33391472400,
xp 17 16 [1,1,1,1,4] 11175664500,
xm 17 16 [2,2,3,3] 2887641900000,
xm 17 16 [1,3,3,3] 2323318140000,
xm 17 16 [2,2,2,4] 2139760022400,
xm 17 16 [1,2,3,4] 15499443960000,
xm 17 16 [1,1,4,4] 5207238036000,
xm 17 16 [1,2,2,5] 9208596196800,
xm 17 16 [1,1,3,5] 11128853736000,
xm 17 16 [1,1,2,6] 13866407755200,
xm 17 16 [1,1,1,7] 7225744125600,
xp 17 16 [4,4,4] 321174813960000,
xp 17 16 [3,4,5] 2057543888400000,
xp 17 16 [2,5,5] 1222679249064000,
xp 17 16 [3,3,6] 1149148040040000,
xp 17 16 [2,4,6] 2558219712048000,
xp 17 16 [1,5,6] 3697694464464000,
xp 17 16 [2,3,7] 2955986233200000,
xp 17 16 [1,4,7] 4000965944976000,
xp 17 16 [2,2,8] 1953683019288000,
xp 17 16 [1,3,8] 4750068763440000,
xp 17 16 [1,2,9] 6427581464304000,
xp 17 16 [1,1,10] 5401043463816000,
xm 17 16 [7,7] 451248184427040000,
xm 17 16 [6,8] 925637301388800000,
xm 17 16 [5,9] 1001371262411520000,
xm 17 16 [4,10] 1153094180958720000,
xm 17 16 [3,11] 1441367726198400000,
xm 17 16 [2,12] 2040089704773120000,
xm 17 16 [1,13] 3582300374452800000,
xp 18 16 [1,1,1,1,1,2] 188828640,
xm 18 16 [1,2,2,2,2] 45398410200,
xm 18 16 [1,1,2,2,3] 323073036000,
xm 18 16 [1,1,1,3,3] 127690992000,
xm 18 16 [1,1,1,2,4] 282893925600,
xm 18 16 [1,1,1,1,5] 99335035800,
xp 18 16 [2,3,3,3] 17170175880000,
xp 18 16 [2,2,3,4] 57061861084800,
xp 18 16 [1,3,3,4] 68063283288000,
xp 18 16 [1,2,4,4] 75436681320000,
xp 18 16 [2,2,2,5] 22496280206400,
xp 18 16 [1,2,3,5] 161075903788800,
xp 18 16 [1,1,4,5] 106586488008000,
xp 18 16 [1,2,2,6] 99786451564800,
xp 18 16 [1,1,3,6] 119138475456000,
xp 18 16 [1,1,2,7] 152934333552000,
xp 18 16 [1,1,1,8] 80420027688000,
xm 18 16 [4,4,5] 11103903490680000,
xm 18 16 [3,5,5] 11852236658808000,
xm 18 16 [3,4,6] 24786138673296000,
xm 18 16 [2,5,6] 29379601755504000,
xm 18 16 [1,6,6] 21895495293672000,
xm 18 16 [3,3,7] 14298152404536000,
xm 18 16 [2,4,7] 31754630299392000,
xm 18 16 [1,5,7] 45262069764912000,
xm 18 16 [2,3,8] 37611984009600000,
xm 18 16 [1,4,8] 50213263516416000,
xm 18 16 [2,2,9] 25288898602968000,
xm 18 16 [1,3,9] 60791621370480000,
xm 18 16 [1,2,10] 83357293939920000,
xm 18 16 [1,1,11] 69919408350792000,
xp 18 16 [7,8] 12357257973540480000,
xp 18 16 [6,9] 12927366402350400000,
xp 18 16 [5,10] 14208851321945280000,
xp 18 16 [4,11] 16575728851281600000,
xp 18 16 [3,12] 20944181806067520000,
xp 18 16 [2,13] 29848455323406720000,
xp 18 16 [1,14] 52095147818313600000,
xp 17 17 [1,1,1,1,1,1] 2902900,
xm 17 17 [1,1,2,2,2] 7236193536,
xm 17 17 [1,1,1,2,3] 17317666080,
xm 17 17 [1,1,1,1,4] 5736931200,
xp 17 17 [2,2,3,3] 1535968137600,
xp 17 17 [1,3,3,3] 1232686728000,
xp 17 17 [2,2,2,4] 1132232774400,
xp 17 17 [1,2,3,4] 8196001632000,
xp 17 17 [1,1,4,4] 2734219051200,
xp 17 17 [1,2,2,5] 4858073962560,
xp 17 17 [1,1,3,5] 5849837884800,
xp 17 17 [1,1,2,6] 7269631649280,
xp 17 17 [1,1,1,7] 3760298942400,
xm 17 17 [4,4,4] 171143872704000,
xm 17 17 [3,4,5] 1097932848768000,
xm 17 17 [2,5,5] 651058604582400,
xm 17 17 [3,3,6] 613585482048000,
xm 17 17 [2,4,6] 1361138131584000,
xm 17 17 [1,5,6] 1959238210406400,
xm 17 17 [2,3,7] 1574689019904000,
xm 17 17 [1,4,7] 2119474983225600,
xm 17 17 [2,2,8] 1037667632601600,
xm 17 17 [1,3,8] 2517919211808000,
xm 17 17 [1,2,9] 3399408492480000,
xm 17 17 [1,1,10] 2839324295808000,
xp 17 17 [7,7] 240684398104550400,
xp 17 17 [6,8] 493630074153216000,
xp 17 17 [5,9] 534131364678912000,
xp 17 17 [4,10] 614842770237696000,
xp 17 17 [3,11] 769151832793344000,
xp 17 17 [2,12] 1086104899969689600,
xp 17 17 [1,13] 1898416808608320000,
xm 18 17 [1,1,1,1,1,2] 193603410,
xp 18 17 [1,2,2,2,2] 49347425556,
xp 18 17 [1,1,2,2,3] 350023433760,
xp 18 17 [1,1,1,3,3] 137727275400,
xp 18 17 [1,1,1,2,4] 303418074960,
xp 18 17 [1,1,1,1,5] 105243138000,
xm 18 17 [2,3,3,3] 19057741560000,
xm 18 17 [2,2,3,4] 63075050438400,
xm 18 17 [1,3,3,4] 75087895428000,
xm 18 17 [1,2,4,4] 82874702383200,
xm 18 17 [2,2,2,5] 24764316857280,
xm 18 17 [1,2,3,5] 176951162606400,
xm 18 17 [1,1,4,5] 116213037595200,
xm 18 17 [1,2,2,6] 109156677870240,
xm 18 17 [1,1,3,6] 129897210643200,
xm 18 17 [1,1,2,7] 165990242658240,
xm 18 17 [1,1,1,8] 86470291908000,
xp 18 17 [4,4,5] 12306414504384000,
xp 18 17 [3,5,5] 13136688661824000,
xp 18 17 [3,4,6] 27473148743040000,
xp 18 17 [2,5,6] 32451247116288000,
xp 18 17 [1,6,6] 24042994604798400,
xp 18 17 [3,3,7] 15850056366144000,
xp 18 17 [2,4,7] 35076043799596800,
xp 18 17 [1,5,7] 49701204698745600,
xp 18 17 [2,3,8] 41550769260000000,
xp 18 17 [1,4,8] 55141495128720000,
xp 18 17 [2,2,9] 27838575231667200,
xp 18 17 [1,3,9] 66762583183296000,
xp 18 17 [1,2,10] 91207426630320000,
xp 18 17 [1,1,11] 75940192167840000,
xm 18 17 [7,8] 13637722907128320000,
xm 18 17 [6,9] 14267156272072704000,
xm 18 17 [5,10] 15682080861038592000,
xm 18 17 [4,11] 18295761004545024000,
xm 18 17 [3,12] 23121016654095360000,
xm 18 17 [2,13] 32847872925067200000,
xm 18 17 [1,14] 56995006127099040000,
xp 18 18 [1,1,1,1,1,2] 65765700,
xm 18 18 [1,2,2,2,2] 17837032356,
xm 18 18 [1,1,2,2,3] 126659178360,
xm 18 18 [1,1,1,3,3] 49827749400,
xm 18 18 [1,1,1,2,4] 108953404560,
xm 18 18 [1,1,1,1,5] 37402665300,
xp 18 18 [2,3,3,3] 7108950420000,
xp 18 18 [2,2,3,4] 23401144166400,
xp 18 18 [1,3,3,4] 27911726388000,
xp 18 18 [1,2,4,4] 30638105971200,
xp 18 18 [2,2,2,5] 9136440593280,
xp 18 18 [1,2,3,5] 65407706582400,
xp 18 18 [1,1,4,5] 42738084043200,
xp 18 18 [1,2,2,6] 40117892855040,
xp 18 18 [1,1,3,6] 47764752235200,
xp 18 18 [1,1,2,7] 60665050686240,
xp 18 18 [1,1,1,8] 31372833492000,
xm 18 18 [4,4,5] 4614905439144000,
xm 18 18 [3,5,5] 4926258248184000,
xm 18 18 [3,4,6] 10302430778640000,
xm 18 18 [2,5,6] 12112579022544000,
xm 18 18 [1,6,6] 8942052732782400,
xm 18 18 [3,3,7] 5943771137304000,
xm 18 18 [2,4,7] 13092157891612800,
xm 18 18 [1,5,7] 18484320456201600,
xm 18 18 [2,3,8] 15508492599600000,
xm 18 18 [1,4,8] 20508011924400000,
xm 18 18 [2,2,9] 10340123324731200,
xm 18 18 [1,3,9] 24828054307056000,
xm 18 18 [1,2,10] 33748822034928000,
xm 18 18 [1,1,11] 27951798426552000,
xp 18 18 [7,8] 5114146090173120000,
xp 18 18 [6,9] 5350183602027264000,
xp 18 18 [5,10] 5880780322889472000,
xp 18 18 [4,11] 6860910376704384000,
xp 18 18 [3,12] 8670381245285760000,
xp 18 18 [2,13] 12264825010838400000,
xp 18 18 [1,14] 21202360860320640000]
/-- row 8 -/
def extC8 : PL := extC8_0
def extC9_0 : PL := [
xm 17 17 [1,1,1,1,1,1] 475475,
xp 17 17 [1,1,2,2,2] 976338792,
xp 17 17 [1,1,1,2,3] 2429958960,
xp 17 17 [1,1,1,1,4] 838737900,
xm 17 17 [2,2,3,3] 191996017200,
xm 17 17 [1,3,3,3] 159471936000,
xm 17 17 [2,2,2,4] 141529096800,
xm 17 17 [1,2,3,4] 1060500168000,
xm 17 17 [1,1,4,4] 366561140400,
xm 17 17 [1,2,2,5] 628713277920,
xm 17 17 [1,1,3,5] 784256709600,
xm 17 17 [1,1,2,6] 975060646560,
xm 17 17 [1,1,1,7] 523372449600,
xp 17 17 [4,4,4] 21392984088000,
xp 17 17 [3,4,5] 137241606096000,
xp 17 17 [2,5,5] 81382325572800,
xp 17 17 [3,3,6] 76698185256000,
xp 17 17 [2,4,6] 170142266448000,
xp 17 17 [1,5,6] 252996011452800,
xp 17 17 [2,3,7] 196836127488000,
xp 17 17 [1,4,7] 273699877651200,
xp 17 17 [2,2,8] 129708454075200,
xp 17 17 [1,3,8] 325175026176000,
xp 17 17 [1,2,9] 439117831152000,
xp 17 17 [1,1,10] 379428593544000,
xm 17 17 [7,7] 30085549763068800,
xm 17 17 [6,8] 61703759269152000,
xm 17 17 [5,9] 66766420584864000,
xm 17 17 [4,10] 76855346279712000,
xm 17 17 [3,11] 96143979099168000,
xm 17 17 [2,12] 135763112496211200,
xm 17 17 [1,13] 244891720513440000,
xp 18 17 [1,1,1,1,1,2] 33693660,
xm 18 17 [1,2,2,2,2] 6705213372,
xm 18 17 [1,1,2,2,3] 49330143720,
xm 18 17 [1,1,1,3,3] 20176813800,
xm 18 17 [1,1,1,2,4] 44879955120,
xm 18 17 [1,1,1,1,5] 16402686300,
xp 18 17 [2,3,3,3] 2398375980000,
xp 18 17 [2,2,3,4] 7992381196800,
xp 18 17 [1,3,3,4] 9825906636000,
xp 18 17 [1,2,4,4] 10922493254400,
xp 18 17 [2,2,2,5] 3159901704960,
xp 18 17 [1,2,3,5] 23323943260800,
xp 18 17 [1,1,4,5] 15972532430400,
xp 18 17 [1,2,2,6] 14494791991680,
xp 18 17 [1,1,3,6] 17857149710400,
xp 18 17 [1,1,2,7] 23002134835680,
xp 18 17 [1,1,1,8] 12543230700000,
xm 18 17 [4,4,5] 1538301813048000,
xm 18 17 [3,5,5] 1642086082728000,
xm 18 17 [3,4,6] 3434143592880000,
xm 18 17 [2,5,6] 4080679594992000,
xm 18 17 [1,6,6] 3138866738884800,
xm 18 17 [3,3,7] 1981257045768000,
xm 18 17 [2,4,7] 4410801989193600,
xm 18 17 [1,5,7] 6488794635523200,
xm 18 17 [2,3,8] 5225151531600000,
xm 18 17 [1,4,8] 7199428476240000,
xm 18 17 [2,2,9] 3522397212734400,
xm 18 17 [1,3,9] 8717980903632000,
xm 18 17 [1,2,10] 11988770281488000,
xm 18 17 [1,1,11] 10396678684392000,
xp 18 17 [7,8] 1704715363391040000,
xp 18 17 [6,9] 1783394534009088000,
xp 18 17 [5,10] 1960260107629824000,
xp 18 17 [4,11] 2286970125568128000,
xp 18 17 [3,12] 2890127081761920000,
xp 18 17 [2,13] 4128752973945600000,
xp 18 17 [1,14] 7431755353102080000,
xm 18 18 [1,1,1,1,1,2] 33693660,
xp 18 18 [1,2,2,2,2] 6705213372,
xp 18 18 [1,1,2,2,3] 49330143720,
xp 18 18 [1,1,1,3,3] 20176813800,
xp 18 18 [1,1,1,2,4] 44879955120,
xp 18 18 [1,1,1,1,5] 16402686300,
xm 18 18 [2,3,3,3] 2398375980000,
xm 18 18 [2,2,3,4] 7992381196800,
xm 18 18 [1,3,3,4] 9825906636000,
xm 18 18 [1,2,4,4] 10922493254400,
xm 18 18 [2,2,2,5] 3159901704960,
xm 18 18 [1,2,3,5] 23323943260800,
xm 18 18 [1,1,4,5] 15972532430400,
xm 18 18 [1,2,2,6] 14494791991680,
xm 18 18 [1,1,3,6] 17857149710400,
xm 18 18 [1,1,2,7] 23002134835680,
xm 18 18 [1,1,1,8] 12543230700000,
xp 18 18 [4,4,5] 1538301813048000,
xp 18 18 [3,5,5] 1642086082728000,
xp 18 18 [3,4,6] 3434143592880000,
xp 18 18 [2,5,6] 4080679594992000,
xp 18 18 [1,6,6] 3138866738884800,
xp 18 18 [3,3,7] 1981257045768000,
xp 18 18 [2,4,7] 4410801989193600,
xp 18 18 [1,5,7] 6488794635523200,
xp 18 18 [2,3,8] 5225151531600000,
xp 18 18 [1,4,8] 7199428476240000,
xp 18 18 [2,2,9] 3522397212734400,
xp 18 18 [1,3,9] 8717980903632000,
xp 18 18 [1,2,10] 11988770281488000,
xp 18 18 [1,1,11] 10396678684392000,
xm 18 18 [7,8] 1704715363391040000,
xm 18 18 [6,9] 1783394534009088000,
xm 18 18 [5,10] 1960260107629824000,
xm 18 18 [4,11] 2286970125568128000,
xm 18 18 [3,12] 2890127081761920000,
xm 18 18 [2,13] 4128752973945600000,
xm 18 18 [1,14] 7431755353102080000]
/-- row 9 -/
def extC9 : PL := extC9_0
/-- row 10 -/
def extC10 : PL := []
/-- all rows -/
def extC : List PL := [extC0, extC1, extC2, extC3, extC4, extC5, extC6, extC7, extC8, extC9, extC10]
end Verif.PL
