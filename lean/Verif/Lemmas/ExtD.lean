import Verif.Lemmas.FormulaCheck

/-! Generated by tools/gen_ext.py (certificate, see Lemmas/ExtKernel). -/
namespace Verif.PL
set_option maxRecDepth 100000

def extD0_0 : PL := [
xp 0 0 [] 2075673600]
/-- row 0 -/
def extD0 : PL := extD0_0
def extD1_0 : PL := [
xm 3 2 [1] 1037836800,
xp 4 2 [2] 1037836800,
xm 5 2 [3] 1037836800,
xp 6 2 [4] 1037836800,
xm 7 2 [5] 1037836800,
xp 8 2 [6] 1037836800,
xm 9 2 [7] 1037836800,
xp 10 2 [8] 1037836800,
xm 11 2 [9] 1037836800,
xp 12 2 [10] 1037836800,
xm 13 2 [11] 1037836800,
xp 14 2 [12] 1037836800,
xm 15 2 [13] 1037836800,
xp 16 2 [14] 1037836800,
xm 17 2 [15] 1037836800,
xp 3 3 [1] 1037836800,
xm 4 3 [2] 3113510400,
xp 5 3 [3] 6227020800,
xm 6 3 [4] 10378368000,
xp 7 3 [5] 15567552000,
xm 8 3 [6] 21794572800,
xp 9 3 [7] 29059430400,
xm 10 3 [8] 37362124800,
xp 11 3 [9] 46702656000,
xm 12 3 [10] 57081024000,
xp 13 3 [11] 68497228800,
xm 14 3 [12] 80951270400,
xp 15 3 [13] 94443148800,
xm 16 3 [14] 108972864000,
xp 17 3 [15] 124540416000,
xp 4 4 [2] 2075673600,
xm 5 4 [3] 10378368000,
xp 6 4 [4] 31135104000,
xm 7 4 [5] 72648576000,
xp 8 4 [6] 145297152000,
xm 9 4 [7] 261534873600,
xp 10 4 [8] 435891456000,
xm 11 4 [9] 684972288000,
xp 12 4 [10] 1027458432000,
xm 13 4 [11] 1484106624000,
xp 14 4 [12] 2077749273600,
xm 15 4 [13] 2833294464000,
xp 16 4 [14] 3777725952000,
xm 17 4 [15] 4940103168000,
xp 5 5 [3] 5189184000,
xm 6 5 [4] 36324288000,
xp 7 5 [5] 145297152000,
xm 8 5 [6] 435891456000,
xp 9 5 [7] 1089728640000,
xm 10 5 [8] 2397403008000,
xp 11 5 [9] 4794806016000,
xm 12 5 [10] 8904639744000,
xp 13 5 [11] 15583119552000,
xm 14 5 [12] 25971865920000,
xp 15 5 [13] 41554985472000,
xm 16 5 [14] 64221341184000,
xp 17 5 [15] 96332011776000,
xp 6 6 [4] 14529715200,
xm 7 6 [5] 130767436800,
xp 8 6 [6] 653837184000,
xm 9 6 [7] 2397403008000,
xp 10 6 [8] 7192209024000,
xm 11 6 [9] 18699743462400,
xp 12 6 [10] 43632734745600,
xm 13 6 [11] 93498717312000,
xp 14 6 [12] 186997434624000,
xm 15 6 [13] 353217376512000,
xp 16 6 [14] 635791277721600,
xm 17 6 [15] 1098184934246400,
xp 7 7 [5] 43589145600,
xm 8 7 [6] 479480601600,
xp 9 7 [7] 2876883609600,
xm 10 7 [8] 12466495641600,
xp 11 7 [9] 43632734745600,
xm 12 7 [10] 130898204236800,
xp 13 7 [11] 349061877964800,
xm 14 7 [12] 847721703628800,
xp 15 7 [13] 1907373833164800,
xm 16 7 [14] 4026678092236800,
xp 17 7 [15] 8053356184473600,
xp 8 8 [6] 136994457600,
xm 9 8 [7] 1780927948800,
xp 10 8 [8] 12466495641600,
xm 11 8 [9] 62332478208000,
xp 12 8 [10] 249329912832000,
xm 13 8 [11] 847721703628800,
xp 14 8 [12] 2543165110886400,
xm 15 8 [13] 6902876729548800,
xp 16 8 [14] 17257191823872000,
xm 17 8 [15] 40266780922368000,
xp 9 9 [7] 445231987200,
xm 10 9 [8] 6678479808000,
xp 11 9 [9] 53427838464000,
xm 12 9 [10] 302757751296000,
xp 13 9 [11] 1362409880832000,
xm 14 9 [12] 5177157547161600,
xp 15 9 [13] 17257191823872000,
xm 16 9 [14] 51771575471616000,
xp 17 9 [15] 142371832546944000,
xp 10 10 [8] 1484106624000,
xm 11 10 [9] 25229812608000,
xp 12 10 [10] 227068313472000,
xm 13 10 [11] 1438099318656000,
xp 14 10 [12] 7190496593280000,
xm 15 10 [13] 30200085691776000,
xp 16 10 [14] 110733647536512000,
xm 17 10 [15] 363839127619968000,
xp 11 11 [9] 5045962521600,
xm 12 11 [10] 95873287910400,
xp 13 11 [11] 958732879104000,
xm 14 11 [12] 6711130153728000,
xp 15 11 [13] 36911215845504000,
xm 16 11 [14] 169791592889318400,
xp 17 11 [15] 679166371557273600,
xp 12 12 [10] 17431506892800,
xm 13 12 [11] 366061644748800,
xp 14 12 [12] 4026678092236800,
xm 15 12 [13] 30871198707148800,
xp 16 12 [14] 185227192242892800,
xm 17 12 [15] 926135961214464000,
xp 13 13 [11] 61010274124800,
xm 14 13 [12] 1403236304870400,
xp 15 13 [13] 16838835658444800,
xm 16 13 [14] 140323630487040000,
xp 17 13 [15] 912103598165760000,
xp 14 14 [12] 215882508441600,
xm 15 14 [13] 5397062711040000,
xp 16 14 [14] 70161815243520000,
xm 17 14 [15] 631456337191680000,
xp 15 15 [13] 771008958720000,
xm 16 15 [14] 20817241885440000,
xp 17 15 [15] 291441386396160000,
xp 16 16 [14] 2775632251392000,
xm 17 16 [15] 80493335290368000,
xp 17 17 [15] 10061666911296000]
/-- row 1 -/
def extD1 : PL := extD1_0
def extD2_0 : PL := [
xp 3 3 [1] 1037836800,
xm 4 3 [2] 3113510400,
xp 5 3 [3] 6227020800,
xm 6 3 [4] 10378368000,
xp 7 3 [5] 15567552000,
xm 8 3 [6] 21794572800,
xp 9 3 [7] 29059430400,
xm 10 3 [8] 37362124800,
xp 11 3 [9] 46702656000,
xm 12 3 [10] 57081024000,
xp 13 3 [11] 68497228800,
xm 14 3 [12] 80951270400,
xp 15 3 [13] 94443148800,
xm 16 3 [14] 108972864000,
xp 17 3 [15] 124540416000,
xp 4 4 [2] 3113510400,
xm 5 4 [3] 15567552000,
xp 6 4 [1,1] 259459200,
xp 6 4 [4] 46702656000,
xm 7 4 [1,2] 518918400,
xm 7 4 [5] 108972864000,
xp 8 4 [2,2] 259459200,
xp 8 4 [1,3] 518918400,
xp 8 4 [6] 217945728000,
xm 9 4 [2,3] 518918400,
xm 9 4 [1,4] 518918400,
xm 9 4 [7] 392302310400,
xp 10 4 [3,3] 259459200,
xp 10 4 [2,4] 518918400,
xp 10 4 [1,5] 518918400,
xp 10 4 [8] 653837184000,
xm 11 4 [3,4] 518918400,
xm 11 4 [2,5] 518918400,
xm 11 4 [1,6] 518918400,
xm 11 4 [9] 1027458432000,
xp 12 4 [4,4] 259459200,
xp 12 4 [3,5] 518918400,
xp 12 4 [2,6] 518918400,
xp 12 4 [1,7] 518918400,
xp 12 4 [10] 1541187648000,
xm 13 4 [4,5] 518918400,
xm 13 4 [3,6] 518918400,
xm 13 4 [2,7] 518918400,
xm 13 4 [1,8] 518918400,
xm 13 4 [11] 2226159936000,
xp 14 4 [5,5] 259459200,
xp 14 4 [4,6] 518918400,
xp 14 4 [3,7] 518918400,
xp 14 4 [2,8] 518918400,
xp 14 4 [1,9] 518918400,
xp 14 4 [12] 3116623910400,
xm 15 4 [5,6] 518918400,
xm 15 4 [4,7] 518918400,
xm 15 4 [3,8] 518918400,
xm 15 4 [2,9] 518918400,
xm 15 4 [1,10] 518918400,
xm 15 4 [13] 4249941696000,
xp 16 4 [6,6] 259459200,
xp 16 4 [5,7] 518918400,
xp 16 4 [4,8] 518918400,
xp 16 4 [3,9] 518918400,
xp 16 4 [2,10] 518918400,
xp 16 4 [1,11] 518918400,
xp 16 4 [14] 5666588928000,
xm 17 4 [6,7] 518918400,
xm 17 4 [5,8] 518918400,
xm 17 4 [4,9] 518918400,
xm 17 4 [3,10] 518918400,
xm 17 4 [2,11] 518918400,
xm 17 4 [1,12] 518918400,
xm 17 4 [15] 7410154752000,
xp 18 4 [7,7] 259459200,
xp 18 4 [6,8] 518918400,
xp 18 4 [5,9] 518918400,
xp 18 4 [4,10] 518918400,
xp 18 4 [3,11] 518918400,
xp 18 4 [2,12] 518918400,
xp 18 4 [1,13] 518918400,
xp 5 5 [3] 10378368000,
xm 6 5 [1,1] 518918400,
xm 6 5 [4] 72648576000,
xp 7 5 [1,2] 2075673600,
xp 7 5 [5] 290594304000,
xm 8 5 [2,2] 1556755200,
xm 8 5 [1,3] 3632428800,
xm 8 5 [6] 871782912000,
xp 9 5 [2,3] 4670265600,
xp 9 5 [1,4] 5708102400,
xp 9 5 [7] 2179457280000,
xm 10 5 [3,3] 3113510400,
xm 10 5 [2,4] 6745939200,
xm 10 5 [1,5] 8302694400,
xm 10 5 [8] 4794806016000,
xp 11 5 [3,4] 8302694400,
xp 11 5 [2,5] 9340531200,
xp 11 5 [1,6] 11416204800,
xp 11 5 [9] 9589612032000,
xm 12 5 [4,4] 5189184000,
xm 12 5 [3,5] 10897286400,
xm 12 5 [2,6] 12454041600,
xm 12 5 [1,7] 15048633600,
xm 12 5 [10] 17809279488000,
xp 13 5 [4,5] 12972960000,
xp 13 5 [3,6] 14010796800,
xp 13 5 [2,7] 16086470400,
xp 13 5 [1,8] 19199980800,
xp 13 5 [11] 31166239104000,
xm 14 5 [5,5] 7783776000,
xm 14 5 [4,6] 16086470400,
xm 14 5 [3,7] 17643225600,
xm 14 5 [2,8] 20237817600,
xm 14 5 [1,9] 23870246400,
xm 14 5 [12] 51943731840000,
xp 15 5 [5,6] 18681062400,
xp 15 5 [4,7] 19718899200,
xp 15 5 [3,8] 21794572800,
xp 15 5 [2,9] 24908083200,
xp 15 5 [1,10] 29059430400,
xp 15 5 [13] 83109970944000,
xm 16 5 [6,6] 10897286400,
xm 16 5 [5,7] 22313491200,
xm 16 5 [4,8] 23870246400,
xm 16 5 [3,9] 26464838400,
xm 16 5 [2,10] 30097267200,
xm 16 5 [1,11] 34767532800,
xm 16 5 [14] 128442682368000,
xp 17 5 [6,7] 25427001600,
xp 17 5 [5,8] 26464838400,
xp 17 5 [4,9] 28540512000,
xp 17 5 [3,10] 31654022400,
xp 17 5 [2,11] 35805369600,
xp 17 5 [1,12] 40994553600,
xp 17 5 [15] 192664023552000,
xm 18 5 [7,7] 14529715200,
xm 18 5 [6,8] 29578348800,
xm 18 5 [5,9] 31135104000,
xm 18 5 [4,10] 33729696000,
xm 18 5 [3,11] 37362124800,
xm 18 5 [2,12] 42032390400,
xm 18 5 [1,13] 47740492800,
xp 6 6 [1,1] 259459200,
xp 6 6 [4] 36324288000,
xm 7 6 [1,2] 2594592000,
xm 7 6 [5] 326918592000,
xp 8 6 [2,2] 3372969600,
xp 8 6 [1,3] 8302694400,
xp 8 6 [6] 1634592960000,
xm 9 6 [2,3] 15567552000,
xm 9 6 [1,4] 20756736000,
xm 9 6 [7] 5993507520000,
xp 10 6 [3,3] 14529715200,
xp 10 6 [2,4] 32172940800,
xp 10 6 [1,5] 44108064000,
xp 10 6 [8] 17980522560000,
xm 11 6 [3,4] 51891840000,
xm 11 6 [2,5] 60713452800,
xm 11 6 [1,6] 83545862400,
xm 11 6 [9] 46749358656000,
xp 12 6 [4,4] 41513472000,
xp 12 6 [3,5] 88216128000,
xp 12 6 [2,6] 106378272000,
xp 12 6 [1,7] 145297152000,
xp 12 6 [10] 109081836864000,
xm 13 6 [4,5] 129729600000,
xm 13 6 [3,6] 143221478400,
xm 13 6 [2,7] 175394419200,
xm 13 6 [1,8] 236626790400,
xm 13 6 [11] 233746793280000,
xp 14 6 [5,5] 94702608000,
xp 14 6 [4,6] 197188992000,
xp 14 6 [3,7] 223134912000,
xp 14 6 [2,8] 275026752000,
xp 14 6 [1,9] 365837472000,
xp 14 6 [12] 467493586560000,
xm 15 6 [5,6] 272432160000,
xm 15 6 [4,7] 291632140800,
xm 15 6 [3,8] 335221286400,
xm 15 6 [2,9] 413577964800,
xm 15 6 [1,10] 542269728000,
xm 15 6 [13] 883043441280000,
xp 16 6 [6,6] 187070083200,
xp 16 6 [5,7] 385037452800,
xp 16 6 [4,8] 420323904000,
xp 16 6 [3,9] 487783296000,
xp 16 6 [2,10] 600388588800,
xp 16 6 [1,11] 776301926400,
xp 16 6 [14] 1589478194304000,
xm 17 6 [6,7] 508540032000,
xm 17 6 [5,8] 534485952000,
xm 17 6 [4,9] 591566976000,
xm 17 6 [3,10] 690161472000,
xm 17 6 [2,11] 845836992000,
xm 17 6 [1,12] 1079350272000,
xm 17 6 [15] 2745462335616000,
xp 18 6 [7,7] 334183449600,
xp 18 6 [6,8] 682896614400,
xp 18 6 [5,9] 729080352000,
xp 18 6 [4,10] 814701888000,
xp 18 6 [3,11] 952734182400,
xp 18 6 [2,12] 1161339379200,
xp 18 6 [1,13] 1463868806400,
xp 7 7 [1,2] 1037836800,
xp 7 7 [5] 130767436800,
xm 8 7 [2,2] 3113510400,
xm 8 7 [1,3] 7783776000,
xm 8 7 [6] 1438441804800,
xp 9 7 [2,3] 24389164800,
xp 9 7 [1,4] 33729696000,
xp 9 7 [7] 8630650828800,
xm 10 7 [3,3] 33729696000,
xm 10 7 [2,4] 75243168000,
xm 10 7 [1,5] 108972864000,
xm 10 7 [8] 37399486924800,
xp 11 7 [3,4] 166053888000,
xp 11 7 [2,5] 197188992000,
xp 11 7 [1,6] 290594304000,
xp 11 7 [9] 130898204236800,
xm 12 7 [4,4] 173837664000,
xm 12 7 [3,5] 371026656000,
xm 12 7 [2,6] 457686028800,
xm 12 7 [1,7] 675631756800,
xm 12 7 [10] 392694612710400,
xp 13 7 [4,5] 687566880000,
xp 13 7 [3,6] 765404640000,
xp 13 7 [2,7] 966226060800,
xp 13 7 [1,8] 1416647232000,
xp 13 7 [11] 1047185633894400,
xm 14 7 [5,5] 617512896000,
xm 14 7 [4,6] 1289512224000,
xm 14 7 [3,7] 1477360684800,
xm 14 7 [2,8] 1889900812800,
xm 14 7 [1,9] 2739889152000,
xm 14 7 [12] 2543165110886400,
xp 15 7 [5,6] 2143132992000,
xp 15 7 [4,7] 2306592288000,
xp 15 7 [3,8] 2695781088000,
xp 15 7 [2,9] 3471564096000,
xp 15 7 [1,10] 4966049088000,
xp 15 7 [13] 5722121499494400,
xm 16 7 [6,6] 1743565824000,
xm 16 7 [5,7] 3596104512000,
xm 16 7 [4,8] 3956752800000,
xm 16 7 [3,9] 4688427744000,
xm 16 7 [2,10] 6050588544000,
xm 16 7 [1,11] 8533613088000,
xm 16 7 [14] 12080034276710400,
xp 17 7 [6,7] 5543086348800,
xp 17 7 [5,8] 5848210368000,
xp 17 7 [4,9] 6540966432000,
xp 17 7 [3,10] 7822694880000,
xp 17 7 [2,11] 10086216940800,
xp 17 7 [1,12] 14024807596800,
xp 17 7 [15] 24160068553420800,
xm 18 7 [7,7] 4206352550400,
xm 18 7 [6,8] 8608856256000,
xm 18 7 [5,9] 9241936704000,
xm 18 7 [4,10] 10463989536000,
xm 18 7 [3,11] 12588960384000,
xm 18 7 [2,12] 16183508140800,
xm 18 7 [1,13] 22194139968000,
xp 8 8 [2,2] 1037836800,
xp 8 8 [1,3] 2594592000,
xp 8 8 [6] 479480601600,
xm 9 8 [2,3] 18162144000,
xm 9 8 [1,4] 25427001600,
xm 9 8 [7] 6233247820800,
xp 10 8 [3,3] 41513472000,
xp 10 8 [2,4] 92886393600,
xp 10 8 [1,5] 138032294400,
xp 10 8 [8] 43632734745600,
xm 11 8 [3,4] 297859161600,
xm 11 8 [2,5] 355978022400,
xm 11 8 [1,6] 544864320000,
xm 11 8 [9] 218163673728000,
xp 12 8 [4,4] 422399577600,
xp 12 8 [3,5] 903436934400,
xp 12 8 [2,6] 1126052928000,
xp 12 8 [1,7] 1743565824000,
xp 12 8 [10] 872654694912000,
xm 13 8 [4,5] 2161295136000,
xm 13 8 [3,6] 2415565152000,
xm 13 8 [2,7] 3094829337600,
xm 13 8 [1,8] 4794806016000,
xm 13 8 [11] 2967025962700800,
xp 14 8 [5,5] 2426462438400,
xp 14 8 [4,6] 5074503033600,
xp 14 8 [3,7] 5848210368000,
xp 14 8 [2,8] 7628100480000,
xp 14 8 [1,9] 11747274739200,
xp 14 8 [12] 8901077888102400,
xm 15 8 [5,6] 10272508646400,
xm 15 8 [4,7] 11086172697600,
xm 15 8 [3,8] 13061176128000,
xm 15 8 [2,9] 17227053043200,
xm 15 8 [1,10] 26268687244800,
xm 15 8 [13] 24160068553420800,
xp 16 8 [6,6] 9989179200000,
xp 16 8 [5,7] 20624930726400,
xp 16 8 [4,8] 22782593433600,
xp 16 8 [3,9] 27275907859200,
xp 16 8 [2,10] 36200785420800,
xp 16 8 [1,11] 54540918432000,
xp 16 8 [14] 60400171383552000,
xm 17 8 [6,7] 37377692352000,
xm 17 8 [5,8] 39513560486400,
xm 17 8 [4,9] 44423047468800,
xm 17 8 [3,10] 53810281324800,
xm 17 8 [2,11] 71608144608000,
xm 17 8 [1,12] 106484650272000,
xm 17 8 [15] 140933733228288000,
xp 18 8 [7,7] 32931599500800,
xp 18 8 [6,8] 67454202816000,
xp 18 8 [5,9] 72619516569600,
xp 18 8 [4,10] 82757625350400,
xp 18 8 [3,11] 101090493504000,
xp 18 8 [2,12] 134534265465600,
xp 18 8 [1,13] 197386180992000,
xp 9 9 [2,3] 5189184000,
xp 9 9 [1,4] 7264857600,
xp 9 9 [7] 1780927948800,
xm 10 9 [3,3] 25945920000,
xm 10 9 [2,4] 58118860800,
xm 10 9 [1,5] 87178291200,
xm 10 9 [8] 26713919232000,
xp 11 9 [3,4] 303048345600,
xp 11 9 [2,5] 363242880000,
xp 11 9 [1,6] 566658892800,
xp 11 9 [9] 213711353856000,
xm 12 9 [4,4] 617512896000,
xm 12 9 [3,5] 1322204083200,
xm 12 9 [2,6] 1656387532800,
xm 12 9 [1,7] 2637143308800,
xm 12 9 [10] 1211031005184000,
xp 13 9 [4,5] 4235411980800,
xp 13 9 [3,6] 4743952012800,
xp 13 9 [2,7] 6124274956800,
xp 13 9 [1,8] 9829352332800,
xp 13 9 [11] 5449639523328000,
xm 14 9 [5,5] 6087950668800,
xm 14 9 [4,6] 12742560230400,
xm 14 9 [3,7] 14733131212800,
xm 14 9 [2,8] 19418964364800,
xm 14 9 [1,9] 31166239104000,
xm 14 9 [12] 20708630188646400,
xp 15 9 [5,6] 31965373440000,
xp 15 9 [4,7] 34551662745600,
xp 15 9 [3,8] 40886618572800,
xp 15 9 [2,9] 54660788582400,
xp 15 9 [1,10] 87265469491200,
xp 15 9 [13] 69028767295488000,
xm 16 9 [6,6] 37617432652800,
xm 16 9 [5,7] 77719446604800,
xm 16 9 [4,8] 86044973414400,
xm 16 9 [3,9] 103602058560000,
xm 16 9 [2,10] 139802843980800,
xm 16 9 [1,11] 221280297638400,
xm 16 9 [14] 207086301886464000,
xp 17 9 [6,7] 167207962521600,
xp 17 9 [5,8] 176971931136000,
xp 17 9 [4,9] 199551108556800,
xp 17 9 [3,10] 243439151155200,
xp 17 9 [2,11] 330362134502400,
xp 17 9 [1,12] 517359569126400,
xp 17 9 [15] 569487330187776000,
xm 18 9 [7,7] 172307892556800,
xm 18 9 [6,8] 353115668505600,
xm 18 9 [5,9] 380794775961600,
xm 18 9 [4,10] 435562461734400,
xm 18 9 [3,11] 536652955238400,
xm 18 9 [2,12] 730328869670400,
xm 18 9 [1,13] 1130295604838400,
xp 10 10 [3,3] 6486480000,
xp 10 10 [2,4] 14529715200,
xp 10 10 [1,5] 21794572800,
xp 10 10 [8] 6678479808000,
xm 11 10 [3,4] 163459296000,
xm 11 10 [2,5] 196151155200,
xm 11 10 [1,6] 308237529600,
xm 11 10 [9] 113534156736000,
xp 12 10 [4,4] 535783248000,
xp 12 10 [3,5] 1147847500800,
xp 12 10 [2,6] 1441555315200,
xp 12 10 [1,7] 2328905779200,
xp 12 10 [10] 1021807410624000,
xm 13 10 [4,5] 5230697472000,
xm 13 10 [3,6] 5865853593600,
xm 13 10 [2,7] 7603192396800,
xm 13 10 [1,8] 12466495641600,
xm 13 10 [11] 6471446933952000,
xp 14 10 [5,5] 9989179200000,
xp 14 10 [4,6] 20918638540800,
xp 14 10 [3,7] 24232451443200,
xp 14 10 [2,8] 32125200307200,
xp 14 10 [1,9] 52982606476800,
xp 14 10 [12] 32357234669760000,
xm 15 10 [5,6] 66672711705600,
xm 15 10 [4,7] 72136922457600,
xm 15 10 [3,8] 85587287385600,
xm 15 10 [2,9] 115315084684800,
xm 15 10 [1,10] 190114058534400]
def extD2_1 : PL := [
xm 15 10 [13] 135900385612992000,
xp 16 10 [6,6] 96640249305600,
xp 16 10 [5,7] 199744146201600,
xp 16 10 [4,8] 221454654220800,
xp 16 10 [3,9] 267550175692800,
xp 16 10 [2,10] 364644997516800,
xp 16 10 [1,11] 598391790796800,
xp 16 10 [14] 498301413914304000,
xm 17 10 [6,7] 516923677670400,
xm 17 10 [5,8] 547523257881600,
xm 17 10 [4,9] 618529976064000,
xm 17 10 [3,10] 757784842214400,
xm 17 10 [2,11] 1040952386073600,
xm 17 10 [1,12] 1695443407257600,
xm 17 10 [15] 1637276074289856000,
xp 18 10 [7,7] 629293381516800,
xp 18 10 [6,8] 1290045672115200,
xp 18 10 [5,9] 1392673201920000,
xp 18 10 [4,10] 1596670403328000,
xp 18 10 [3,11] 1977497871148800,
xp 18 10 [2,12] 2730162545510400,
xp 18 10 [1,13] 4405125281356800,
xp 11 11 [3,4] 36324288000,
xp 11 11 [2,5] 43589145600,
xp 11 11 [1,6] 68497228800,
xp 11 11 [9] 25229812608000,
xm 12 11 [4,4] 254270016000,
xm 12 11 [3,5] 544864320000,
xm 12 11 [2,6] 684972288000,
xm 12 11 [1,7] 1113079968000,
xm 12 11 [10] 479366439552000,
xp 13 11 [4,5] 3959347392000,
xp 13 11 [3,6] 4442979340800,
xp 13 11 [2,7] 5770891526400,
xp 13 11 [1,8] 9572487724800,
xp 13 11 [11] 4793664395520000,
xm 14 11 [5,5] 10679340672000,
xm 14 11 [4,6] 22370572224000,
xm 14 11 [3,7] 25943325408000,
xm 14 11 [2,8] 34505479008000,
xm 14 11 [1,9] 57880158336000,
xm 14 11 [12] 33555650768640000,
xp 15 11 [5,6] 94090284288000,
xp 15 11 [4,7] 101863163001600,
xp 15 11 [3,8] 121051727596800,
xp 15 11 [2,9] 163845371289600,
xp 15 11 [1,10] 276043832064000,
xp 15 11 [13] 184556079227520000,
xm 16 11 [6,6] 172307892556800,
xm 16 11 [5,7] 356233849171200,
xm 16 11 [4,8] 395314631712000,
xm 16 11 [3,9] 478624386240000,
xm 16 11 [2,10] 656271949132800,
xm 16 11 [1,11] 1105065792230400,
xm 16 11 [14] 848957964446592000,
xp 17 11 [6,7] 1129355843616000,
xp 17 11 [5,8] 1196810046432000,
xp 17 11 [4,9] 1353676484160000,
xp 17 11 [3,10] 1662941472192000,
xp 17 11 [2,11] 2301849373824000,
xp 17 11 [1,12] 3860161329024000,
xp 17 11 [15] 3395831857786368000,
xm 18 11 [7,7] 1646279521286400,
xm 18 11 [6,8] 3375594808185600,
xm 18 11 [5,9] 3646792461312000,
xm 18 11 [4,10] 4187406839616000,
xm 18 11 [3,11] 5203426234406400,
xm 18 11 [2,12] 7251048143539200,
xm 18 11 [1,13] 12080034276710400,
xp 12 12 [4,4] 50854003200,
xp 12 12 [3,5] 108972864000,
xp 12 12 [2,6] 136994457600,
xp 12 12 [1,7] 222615993600,
xp 12 12 [10] 95873287910400,
xm 13 12 [4,5] 1678182105600,
xm 13 12 [3,6] 1883673792000,
xm 13 12 [2,7] 2448775929600,
xm 13 12 [1,8] 4081293216000,
xm 13 12 [11] 2013339046118400,
xp 14 12 [5,5] 7170414451200,
xp 14 12 [4,6] 15022687680000,
xp 14 12 [3,7] 17432544729600,
xp 14 12 [2,8] 23226268665600,
xp 14 12 [1,9] 39328825536000,
xp 14 12 [12] 22146729507302400,
xm 15 12 [5,6] 88703911296000,
xm 15 12 [4,7] 96067363392000,
xm 15 12 [3,8] 114276210048000,
xm 15 12 [2,9] 155089142208000,
xm 15 12 [1,10] 264913032384000,
xm 15 12 [13] 169791592889318400,
xp 16 12 [6,6] 213259894848000,
xp 16 12 [5,7] 440974261728000,
xp 16 12 [4,8] 489641023872000,
xp 16 12 [3,9] 593642649600000,
xp 16 12 [2,10] 817000696512000,
xp 16 12 [1,11] 1400254599744000,
xp 16 12 [14] 1018749557335910400,
xm 17 12 [6,7] 1757656015315200,
xm 17 12 [5,8] 1863267325920000,
xm 17 12 [4,9] 2109212334028800,
xm 17 12 [3,10] 2595702485376000,
xm 17 12 [2,11] 3610386184204800,
xm 17 12 [1,12] 6183827070220800,
xm 17 12 [15] 5093747786679552000,
xp 18 12 [7,7] 3125494301529600,
xp 18 12 [6,8] 6409599644448000,
xp 18 12 [5,9] 6928026628723200,
xp 18 12 [4,10] 7963419323059200,
xp 18 12 [3,11] 9917542514880000,
xp 18 12 [2,12] 13904149728268800,
xp 18 12 [1,13] 23728638757824000,
xp 13 13 [4,5] 305124019200,
xp 13 13 [3,6] 342486144000,
xp 13 13 [2,7] 445231987200,
xp 13 13 [1,8] 742053312000,
xp 13 13 [11] 366061644748800,
xm 14 13 [5,5] 2746116172800,
xm 14 13 [4,6] 5753767219200,
xm 14 13 [3,7] 6678479808000,
xm 14 13 [2,8] 8904639744000,
xm 14 13 [1,9] 15137887564800,
xm 14 13 [12] 8419417829222400,
xp 15 13 [5,6] 53527470796800,
xp 15 13 [4,7] 57982904179200,
xp 15 13 [3,8] 69010958016000,
xp 15 13 [2,9] 93795538636800,
xp 15 13 [1,10] 161470800691200,
xp 15 13 [13] 101033013950668800,
xm 16 13 [6,6] 179805225600000,
xm 16 13 [5,7] 371837206540800,
xm 16 13 [4,8] 413026873459200,
xm 16 13 [3,9] 501182806924800,
xm 16 13 [2,10] 691296865459200,
xm 16 13 [1,11] 1198416098880000,
xm 16 13 [14] 841941782922240000,
xp 17 13 [6,7] 1937101630464000,
xp 17 13 [5,8] 2053957902796800,
xp 17 13 [4,9] 2326337133120000,
xp 17 13 [3,10] 2866255122931200,
xp 17 13 [2,11] 3998925298368000,
xp 17 13 [1,12] 6950813373504000,
xp 17 13 [15] 5472621588994560000,
xm 18 13 [7,7] 4313886972595200,
xm 18 13 [6,8] 8847615801024000,
xm 18 13 [5,9] 9566551298304000,
xm 18 13 [4,10] 11004205384972800,
xm 18 13 [3,11] 13725018058752000,
xm 18 13 [2,12] 19318467513945600,
xm 18 13 [1,13] 33555650768640000,
xp 14 14 [5,5] 457686028800,
xp 14 14 [4,6] 958961203200,
xp 14 14 [3,7] 1113079968000,
xp 14 14 [2,8] 1484106624000,
xp 14 14 [1,9] 2522981260800,
xp 14 14 [12] 1403236304870400,
xm 15 14 [5,6] 18699743462400,
xm 15 14 [4,7] 20258055417600,
xm 15 14 [3,8] 24116732640000,
xm 15 14 [2,9] 32798756390400,
xm 15 14 [1,10] 56652397401600,
xm 15 14 [13] 35080907621760000,
xp 16 14 [6,6] 98533263628800,
xp 16 14 [5,7] 203779255680000,
xp 16 14 [4,8] 226400465491200,
xp 16 14 [3,9] 274856546764800,
xp 16 14 [2,10] 379593998784000,
xp 16 14 [1,11] 662397261926400,
xp 16 14 [14] 456051799082880000,
xm 17 14 [6,7] 1477279733529600,
xm 17 14 [5,8] 1566622952294400,
xm 17 14 [4,9] 1774991522304000,
xm 17 14 [3,10] 2188571562777600,
xm 17 14 [2,11] 3059229459686400,
xm 17 14 [1,12] 5368904122982400,
xm 17 14 [15] 4104466191745920000,
xp 18 14 [7,7] 4284398915596800,
xp 18 14 [6,8] 8787760639257600,
xp 18 14 [5,9] 9504070409433600,
xp 18 14 [4,10] 10937676932582400,
xp 18 14 [3,11] 13655750755046400,
xp 18 14 [2,12] 19270530869990400,
xp 18 14 [1,13] 33891207276326400,
xp 15 15 [5,6] 2876883609600,
xp 15 15 [4,7] 3116623910400,
xp 15 15 [3,8] 3710266560000,
xp 15 15 [2,9] 5045962521600,
xp 15 15 [1,10] 8715753446400,
xp 15 15 [13] 5397062711040000,
xm 16 15 [6,6] 31645719705600,
xm 16 15 [5,7] 65449102118400,
xm 16 15 [4,8] 72721224576000,
xm 16 15 [3,9] 88304344128000,
xm 16 15 [2,10] 122020548249600,
xm 16 15 [1,11] 213535959436800,
xm 16 15 [14] 145720693198080000,
xp 17 15 [6,7] 741516750374400,
xp 17 15 [5,8] 786428100057600,
xp 17 15 [4,9] 891206027712000,
xp 17 15 [3,10] 1099331743910400,
xp 17 15 [2,11] 1538330483289600,
xp 17 15 [1,12] 2714957198553600,
xp 17 15 [15] 2040089704773120000,
xm 18 15 [7,7] 2982609082252800,
xm 18 15 [6,8] 6117932736115200,
xm 18 15 [5,9] 6617631436416000,
xm 18 15 [4,10] 7618256597952000,
xm 18 15 [3,11] 9517602763468800,
xm 18 15 [2,12] 13452765444518400,
xm 18 15 [1,13] 23855017182796800,
xp 16 16 [6,6] 4520817100800,
xp 16 16 [5,7] 9349871731200,
xp 16 16 [4,8] 10388746368000,
xp 16 16 [3,9] 12614906304000,
xp 16 16 [2,10] 17431506892800,
xp 16 16 [1,11] 30505137062400,
xp 16 16 [14] 20817241885440000,
xm 17 16 [6,7] 220389833664000,
xm 17 16 [5,8] 233746793280000,
xm 17 16 [4,9] 264913032384000,
xm 17 16 [3,10] 326840754240000,
xm 17 16 [2,11] 457577055936000,
xm 17 16 [1,12] 809559406656000,
xm 17 16 [15] 603700014677760000,
xp 18 16 [7,7] 1381109624294400,
xp 18 16 [6,8] 2833011134553600,
xp 18 16 [5,9] 3064680178560000,
xp 18 16 [4,10] 3528733336128000,
xp 18 16 [3,11] 4410171243878400,
xp 18 16 [2,12] 6239473803763200,
xp 18 16 [1,13] 11117949184742400,
xp 17 17 [6,7] 29385311155200,
xp 17 17 [5,8] 31166239104000,
xp 17 17 [4,9] 35321737651200,
xp 17 17 [3,10] 43578767232000,
xp 17 17 [2,11] 61010274124800,
xp 17 17 [1,12] 107941254220800,
xp 17 17 [15] 80493335290368000,
xm 18 17 [7,7] 382009045017600,
xm 18 17 [6,8] 783608297472000,
xm 18 17 [5,9] 847721703628800,
xm 18 17 [4,10] 976164385996800,
xm 18 17 [3,11] 1220205482496000,
xm 18 17 [2,12] 1727060067532800,
xm 18 17 [1,13] 3084035834880000,
xp 18 18 [7,7] 47751130627200,
xp 18 18 [6,8] 97951037184000,
xp 18 18 [5,9] 105965212953600,
xp 18 18 [4,10] 122020548249600,
xp 18 18 [3,11] 152525685312000,
xp 18 18 [2,12] 215882508441600,
xp 18 18 [1,13] 385504479360000]
/-- row 2 -/
def extD2 : PL := extD2_0 ++ extD2_1
def extD3_0 : PL := [
xm 5 5 [3] 5189184000,
xm 6 5 [1,1] 518918400,
xp 6 5 [4] 36324288000,
xp 7 5 [1,2] 2075673600,
xm 7 5 [5] 145297152000,
xm 8 5 [2,2] 1556755200,
xm 8 5 [1,3] 3632428800,
xp 8 5 [6] 435891456000,
xp 9 5 [2,3] 4670265600,
xp 9 5 [1,4] 5708102400,
xm 9 5 [7] 1089728640000,
xm 10 5 [3,3] 3113510400,
xm 10 5 [2,4] 6745939200,
xm 10 5 [1,5] 8302694400,
xp 10 5 [8] 2397403008000,
xp 11 5 [3,4] 8302694400,
xp 11 5 [2,5] 9340531200,
xp 11 5 [1,6] 11416204800,
xm 11 5 [9] 4794806016000,
xm 12 5 [4,4] 5189184000,
xm 12 5 [3,5] 10897286400,
xm 12 5 [2,6] 12454041600,
xm 12 5 [1,7] 15048633600,
xp 12 5 [10] 8904639744000,
xp 13 5 [4,5] 12972960000,
xp 13 5 [3,6] 14010796800,
xp 13 5 [2,7] 16086470400,
xp 13 5 [1,8] 19199980800,
xm 13 5 [11] 15583119552000,
xm 14 5 [5,5] 7783776000,
xm 14 5 [4,6] 16086470400,
xm 14 5 [3,7] 17643225600,
xm 14 5 [2,8] 20237817600,
xm 14 5 [1,9] 23870246400,
xp 14 5 [12] 25971865920000,
xp 15 5 [5,6] 18681062400,
xp 15 5 [4,7] 19718899200,
xp 15 5 [3,8] 21794572800,
xp 15 5 [2,9] 24908083200,
xp 15 5 [1,10] 29059430400,
xm 15 5 [13] 41554985472000,
xm 16 5 [6,6] 10897286400,
xm 16 5 [5,7] 22313491200,
xm 16 5 [4,8] 23870246400,
xm 16 5 [3,9] 26464838400,
xm 16 5 [2,10] 30097267200,
xm 16 5 [1,11] 34767532800,
xp 16 5 [14] 64221341184000,
xp 17 5 [6,7] 25427001600,
xp 17 5 [5,8] 26464838400,
xp 17 5 [4,9] 28540512000,
xp 17 5 [3,10] 31654022400,
xp 17 5 [2,11] 35805369600,
xp 17 5 [1,12] 40994553600,
xm 17 5 [15] 96332011776000,
xm 18 5 [7,7] 14529715200,
xm 18 5 [6,8] 29578348800,
xm 18 5 [5,9] 31135104000,
xm 18 5 [4,10] 33729696000,
xm 18 5 [3,11] 37362124800,
xm 18 5 [2,12] 42032390400,
xm 18 5 [1,13] 47740492800,
xp 6 6 [1,1] 432432000,
xm 6 6 [4] 36324288000,
xm 7 6 [1,2] 4151347200,
xp 7 6 [5] 326918592000,
xp 8 6 [2,2] 5448643200,
xp 8 6 [1,3] 12972960000,
xm 8 6 [6] 1634592960000,
xm 9 6 [1,1,1] 43243200,
xm 9 6 [2,3] 24908083200,
xm 9 6 [1,4] 31999968000,
xp 9 6 [7] 5993507520000,
xp 10 6 [1,1,2] 129729600,
xp 10 6 [3,3] 23351328000,
xp 10 6 [2,4] 50854003200,
xp 10 6 [1,5] 67459392000,
xm 10 6 [8] 17980522560000,
xm 11 6 [1,2,2] 129729600,
xm 11 6 [1,1,3] 129729600,
xm 11 6 [3,4] 83026944000,
xm 11 6 [2,5] 94962067200,
xm 11 6 [1,6] 127135008000,
xp 11 6 [9] 46749358656000,
xp 12 6 [2,2,2] 43243200,
xp 12 6 [1,2,3] 259459200,
xp 12 6 [1,1,4] 129729600,
xp 12 6 [4,4] 66594528000,
xp 12 6 [3,5] 140107968000,
xp 12 6 [2,6] 165016051200,
xp 12 6 [1,7] 220367347200,
xm 12 6 [10] 109081836864000,
xm 13 6 [2,2,3] 129729600,
xm 13 6 [1,3,3] 129729600,
xm 13 6 [1,2,4] 259459200,
xm 13 6 [1,1,5] 129729600,
xm 13 6 [4,5] 207567360000,
xm 13 6 [3,6] 225729504000,
xm 13 6 [2,7] 270356486400,
xm 13 6 [1,8] 358053696000,
xp 13 6 [11] 233746793280000,
xp 14 6 [2,3,3] 129729600,
xp 14 6 [2,2,4] 129729600,
xp 14 6 [1,3,4] 259459200,
xp 14 6 [1,2,5] 259459200,
xp 14 6 [1,1,6] 129729600,
xp 14 6 [5,5] 151783632000,
xp 14 6 [4,6] 313945632000,
xp 14 6 [3,7] 349232083200,
xp 14 6 [2,8] 421880659200,
xp 14 6 [1,9] 552648096000,
xm 14 6 [12] 467493586560000,
xm 15 6 [3,3,3] 43243200,
xm 15 6 [2,3,4] 259459200,
xm 15 6 [1,4,4] 129729600,
xm 15 6 [2,2,5] 129729600,
xm 15 6 [1,3,5] 259459200,
xm 15 6 [1,2,6] 259459200,
xm 15 6 [1,1,7] 129729600,
xm 15 6 [5,6] 435891456000,
xm 15 6 [4,7] 461664403200,
xm 15 6 [3,8] 521512992000,
xm 15 6 [2,9] 632042611200,
xm 15 6 [1,10] 818161344000,
xp 15 6 [13] 883043441280000,
xp 16 6 [3,3,4] 129729600,
xp 16 6 [2,4,4] 129729600,
xp 16 6 [2,3,5] 259459200,
xp 16 6 [1,4,5] 259459200,
xp 16 6 [2,2,6] 129729600,
xp 16 6 [1,3,6] 259459200,
xp 16 6 [1,2,7] 259459200,
xp 16 6 [1,1,8] 129729600,
xp 16 6 [6,6] 299675376000,
xp 16 6 [5,7] 613880467200,
xp 16 6 [4,8] 661620960000,
xp 16 6 [3,9] 755026272000,
xp 16 6 [2,10] 914853139200,
xp 16 6 [1,11] 1170160992000,
xm 16 6 [14] 1589478194304000,
xm 17 6 [3,4,4] 129729600,
xm 17 6 [3,3,5] 129729600,
xm 17 6 [2,4,5] 259459200,
xm 17 6 [1,5,5] 129729600,
xm 17 6 [2,3,6] 259459200,
xm 17 6 [1,4,6] 259459200,
xm 17 6 [2,2,7] 129729600,
xm 17 6 [1,3,7] 259459200,
xm 17 6 [1,2,8] 259459200,
xm 17 6 [1,1,9] 129729600,
xm 17 6 [6,7] 813664051200,
xm 17 6 [5,8] 848431584000,
xm 17 6 [4,9] 926269344000,
xm 17 6 [3,10] 1063782720000,
xm 17 6 [2,11] 1285879795200,
xm 17 6 [1,12] 1625771347200,
xp 17 6 [15] 2745462335616000,
xp 18 6 [4,4,4] 43243200,
xp 18 6 [3,4,5] 259459200,
xp 18 6 [2,5,5] 129729600,
xp 18 6 [3,3,6] 129729600,
xp 18 6 [2,4,6] 259459200,
xp 18 6 [1,5,6] 259459200,
xp 18 6 [2,3,7] 259459200,
xp 18 6 [1,4,7] 259459200,
xp 18 6 [2,2,8] 129729600,
xp 18 6 [1,3,8] 259459200,
xp 18 6 [1,2,9] 259459200,
xp 18 6 [1,1,10] 129729600,
xp 18 6 [7,7] 535177843200,
xp 18 6 [6,8] 1089728640000,
xp 18 6 [5,9] 1151998848000,
xp 18 6 [4,10] 1269620352000,
xp 18 6 [3,11] 1463349888000,
xp 18 6 [2,12] 1762246886400,
xp 18 6 [1,13] 2203673472000,
xp 7 7 [1,2] 2075673600,
xm 7 7 [5] 196151155200,
xm 8 7 [2,2] 6227020800,
xm 8 7 [1,3] 15567552000,
xp 8 7 [6] 2157662707200,
xp 9 7 [1,1,1] 129729600,
xp 9 7 [2,3] 48778329600,
xp 9 7 [1,4] 67459392000,
xm 9 7 [7] 12945976243200,
xm 10 7 [1,1,2] 648648000,
xm 10 7 [3,3] 67459392000,
xm 10 7 [2,4] 150486336000,
xm 10 7 [1,5] 217945728000,
xp 10 7 [8] 56099230387200,
xp 11 7 [1,2,2] 908107200,
xp 11 7 [1,1,3] 1037836800,
xp 11 7 [3,4] 332107776000,
xp 11 7 [2,5] 394377984000,
xp 11 7 [1,6] 581188608000,
xm 11 7 [9] 196347306355200,
xm 12 7 [2,2,2] 389188800,
xm 12 7 [1,2,3] 2594592000,
xm 12 7 [1,1,4] 1556755200,
xm 12 7 [4,4] 347675328000,
xm 12 7 [3,5] 742053312000,
xm 12 7 [2,6] 915372057600,
xm 12 7 [1,7] 1351263513600,
xp 12 7 [10] 589041919065600,
xp 13 7 [2,2,3] 1556755200,
xp 13 7 [1,3,3] 1686484800,
xp 13 7 [1,2,4] 3632428800,
xp 13 7 [1,1,5] 2205403200,
xp 13 7 [4,5] 1375133760000,
xp 13 7 [3,6] 1530809280000,
xp 13 7 [2,7] 1932452121600,
xp 13 7 [1,8] 2833294464000,
xm 13 7 [11] 1570778450841600,
xm 14 7 [2,3,3] 1945944000,
xm 14 7 [2,2,4] 2075673600,
xm 14 7 [1,3,4] 4410806400,
xm 14 7 [1,2,5] 4929724800,
xm 14 7 [1,1,6] 2983780800,
xm 14 7 [5,5] 1235025792000,
xm 14 7 [4,6] 2579024448000,
xm 14 7 [3,7] 2954721369600,
xm 14 7 [2,8] 3779801625600,
xm 14 7 [1,9] 5479778304000,
xp 14 7 [12] 3814747666329600,
xp 15 7 [3,3,3] 778377600,
xp 15 7 [2,3,4] 4929724800,
xp 15 7 [1,4,4] 2724321600,
xp 15 7 [2,2,5] 2724321600,
xp 15 7 [1,3,5] 5708102400,
xp 15 7 [1,2,6] 6486480000,
xp 15 7 [1,1,7] 3891888000,
xp 15 7 [5,6] 4286265984000,
xp 15 7 [4,7] 4613184576000,
xp 15 7 [3,8] 5391562176000,
xp 15 7 [2,9] 6943128192000,
xp 15 7 [1,10] 9932098176000,
xm 15 7 [13] 8583182249241600,
xm 16 7 [3,3,4] 2854051200,
xm 16 7 [2,4,4] 2983780800,
xm 16 7 [2,3,5] 6227020800,
xm 16 7 [1,4,5] 6745939200,
xm 16 7 [2,2,6] 3502699200,
xm 16 7 [1,3,6] 7264857600,
xm 16 7 [1,2,7] 8302694400,
xm 16 7 [1,1,8] 4929724800,
xm 16 7 [6,6] 3487131648000,
xm 16 7 [5,7] 7192209024000,
xm 16 7 [4,8] 7913505600000,
xm 16 7 [3,9] 9376855488000,
xm 16 7 [2,10] 12101177088000,
xm 16 7 [1,11] 17067226176000,
xp 16 7 [14] 18120051415065600,
xp 17 7 [3,4,4] 3372969600,
xp 17 7 [3,3,5] 3502699200,
xp 17 7 [2,4,5] 7264857600,
xp 17 7 [1,5,5] 4021617600,
xp 17 7 [2,3,6] 7783776000,
xp 17 7 [1,4,6] 8302694400,
xp 17 7 [2,2,7] 4410806400,
xp 17 7 [1,3,7] 9081072000,
xp 17 7 [1,2,8] 10378368000,
xp 17 7 [1,1,9] 6097291200,
xp 17 7 [6,7] 11086172697600,
xp 17 7 [5,8] 11696420736000,
xp 17 7 [4,9] 13081932864000,
xp 17 7 [3,10] 15645389760000,
xp 17 7 [2,11] 20172433881600,
xp 17 7 [1,12] 28049615193600,
xm 17 7 [15] 36240102830131200,
xm 18 7 [4,4,4] 1297296000,
xm 18 7 [3,4,5] 8043235200,
xm 18 7 [2,5,5] 4281076800,
xm 18 7 [3,3,6] 4281076800,
xm 18 7 [2,4,6] 8821612800,
xm 18 7 [1,5,6] 9599990400,
xm 18 7 [2,3,7] 9599990400,
xm 18 7 [1,4,7] 10118908800,
xm 18 7 [2,2,8] 5448643200,
xm 18 7 [1,3,8] 11156745600,
xm 18 7 [1,2,9] 12713500800,
xm 18 7 [1,1,10] 7394587200,
xm 18 7 [7,7] 8412705100800,
xm 18 7 [6,8] 17217712512000,
xm 18 7 [5,9] 18483873408000,
xm 18 7 [4,10] 20927979072000,
xm 18 7 [3,11] 25177920768000,
xm 18 7 [2,12] 32367016281600,
xm 18 7 [1,13] 44388279936000,
xp 8 8 [2,2] 2283240960,
xp 8 8 [1,3] 6227020800,
xm 8 8 [6] 958961203200,
xm 9 8 [1,1,1] 129729600,
xm 9 8 [2,3] 41513472000,
xm 9 8 [1,4] 61751289600,
xp 9 8 [7] 12466495641600,
xp 10 8 [1,1,2] 1167566400,
xp 10 8 [3,3] 94443148800,
xp 10 8 [2,4] 217426809600,
xp 10 8 [1,5] 337815878400,
xm 10 8 [8] 87265469491200,
xm 11 8 [1,2,2] 2464862400,
xm 11 8 [1,1,3] 2983780800,
xm 11 8 [3,4] 684453369600,
xm 11 8 [2,5] 846355910400,
xm 11 8 [1,6] 1340366227200,
xp 11 8 [9] 436327347456000,
xp 12 8 [2,2,2] 1427025600,
xp 12 8 [1,2,3] 10118908800,
xp 12 8 [1,1,4] 6616209600,
xp 12 8 [4,4] 967782816000,
xp 12 8 [3,5] 2102138438400,
xp 12 8 [2,6] 2706159456000,
xp 12 8 [1,7] 4304428128000,
xm 12 8 [10] 1745309389824000,
xm 13 8 [2,2,3] 7654046400,
xm 13 8 [1,3,3] 8821612800,
xm 13 8 [1,2,4] 19459440000,
xm 13 8 [1,1,5] 13102689600,
xm 13 8 [4,5] 4976427456000,
xm 13 8 [3,6] 5684751072000,
xm 13 8 [2,7] 7495153585920,
xm 13 8 [1,8] 11867144889600,
xp 13 8 [11] 5934051925401600,
xp 14 8 [2,3,3] 12194582400,
xp 14 8 [2,2,4] 13362148800,
xp 14 8 [1,3,4] 30097267200,
xp 14 8 [1,2,5] 35026992000,
xp 14 8 [1,1,6] 23740516800,
xp 14 8 [5,5] 5575778208000,
xp 14 8 [4,6] 11776334169600,
xp 14 8 [3,7] 13894040160000,
xp 14 8 [2,8] 18579873312000,
xp 14 8 [1,9] 29128446547200,
xm 14 8 [12] 17802155776204800,
xm 15 8 [3,3,3] 5967561600,
xm 15 8 [2,3,4] 38918880000,
xm 15 8 [1,4,4] 23351328000,
xm 15 8 [2,2,5] 22443220800,
xm 15 8 [1,3,5] 49556707200,
xm 15 8 [1,2,6] 59416156800,
xm 15 8 [1,1,7] 40086446400,
xm 15 8 [5,6] 23676170918400,
xm 15 8 [4,7] 25942806489600,
xm 15 8 [3,8] 31270541702400,
xm 15 8 [2,9] 42142920019200,
xm 15 8 [1,10] 65226486124800,
xp 15 8 [13] 48320137106841600,
xp 16 8 [3,3,4] 26724297600,
xp 16 8 [2,4,4] 28799971200,
xp 16 8 [2,3,5] 60972912000,
xp 16 8 [1,4,5] 71351280000,
xp 16 8 [2,2,6] 36194558400,
xp 16 8 [1,3,6] 78616137600,
xp 16 8 [1,2,7] 95740444800,
xp 16 8 [1,1,8] 63956692800,
xp 16 8 [6,6] 22989641875200,
xp 16 8 [5,7] 47795498150400,
xp 16 8 [4,8] 53730886809600,
xp 16 8 [3,9] 65712193747200,
xp 16 8 [2,10] 88858030060800,
xp 16 8 [1,11] 135573140102400,
xm 16 8 [14] 120800342767104000,
xm 17 8 [3,4,4] 37621584000,
xm 17 8 [3,3,5] 39697257600,
xm 17 8 [2,4,5] 84843158400,
xm 17 8 [1,5,5] 51243192000,
xm 17 8 [2,3,6] 93145852800,
xm 17 8 [1,4,6] 106637731200,
xm 17 8 [2,2,7] 56172916800,
xm 17 8 [1,3,7] 120389068800,
xm 17 8 [1,2,8] 147632284800,
xm 17 8 [1,1,9] 97426929600,
xm 17 8 [6,7] 86197535424000,
xm 17 8 [5,8] 92147453798400,
xm 17 8 [4,9] 105496110720000,
xm 17 8 [3,10] 130298853484800,
xm 17 8 [2,11] 176237661600000,
xm 17 8 [1,12] 264913032384000,
xp 17 8 [15] 281867466456576000,
xp 18 8 [4,4,4] 16864848000,
xp 18 8 [3,4,5] 106378272000,
xp 18 8 [2,5,5] 59286427200,
xp 18 8 [3,3,6] 58118860800,
xp 18 8 [2,4,6] 123243120000,
xp 18 8 [1,5,6] 145556611200,
xp 18 8 [2,3,7] 138551212800,
xp 18 8 [1,4,7] 155675520000,
xp 18 8 [2,2,8] 84194510400,
xp 18 8 [1,3,8] 178507929600,
xp 18 8 [1,2,9] 219243024000,
xp 18 8 [1,1,10] 142832289600,
xp 18 8 [7,7] 75860369544960,
xp 18 8 [6,8] 156179908684800,
xp 18 8 [5,9] 170433559296000,
xp 18 8 [4,10] 197718288768000,
xp 18 8 [3,11] 245808013651200,
xp 18 8 [2,12] 331816558993920,
xp 18 8 [1,13] 491387703206400,
xp 9 9 [1,1,1] 43243200,
xp 9 9 [2,3] 12972960000]
def extD3_1 : PL := [
xp 9 9 [1,4] 20583763200,
xm 9 9 [7] 4452319872000,
xm 10 9 [1,1,2] 908107200,
xm 10 9 [3,3] 64864800000,
xm 10 9 [2,4] 152562009600,
xm 10 9 [1,5] 250637587200,
xp 10 9 [8] 66784798080000,
xp 11 9 [1,2,2] 3243240000,
xp 11 9 [1,1,3] 4021617600,
xp 11 9 [3,4] 772150579200,
xp 11 9 [2,5] 984388204800,
xp 11 9 [1,6] 1645490246400,
xm 11 9 [9] 534278384640000,
xm 12 9 [2,2,2] 2724321600,
xm 12 9 [1,2,3] 19978358400,
xm 12 9 [1,1,4] 13621608000,
xm 12 9 [4,4] 1567998432000,
xm 12 9 [3,5] 3447174931200,
xm 12 9 [2,6] 4587757574400,
xm 12 9 [1,7] 7711646342400,
xp 12 9 [10] 3027577512960000,
xp 13 9 [2,2,3] 20108088000,
xp 13 9 [1,3,3] 24129705600,
xp 13 9 [1,2,4] 53708054400,
xp 13 9 [1,1,5] 38270232000,
xp 13 9 [4,5] 10853697254400,
xp 13 9 [3,6] 12633587366400,
xp 13 9 [2,7] 17228609798400,
xp 13 9 [1,8] 28888706246400,
xm 13 9 [11] 13624098808320000,
xm 14 9 [2,3,3] 41772931200,
xm 14 9 [2,2,4] 46313467200,
xm 14 9 [1,3,4] 108972864000,
xm 14 9 [1,2,5] 128951222400,
xm 14 9 [1,1,6] 93535041600,
xm 14 9 [5,5] 15557692550400,
xm 14 9 [4,6] 33116853369600,
xm 14 9 [3,7] 39949451942400,
xm 14 9 [2,8] 55260139334400,
xm 14 9 [1,9] 91940405356800,
xp 14 9 [12] 51771575471616000,
xp 15 9 [3,3,3] 25556731200,
xp 15 9 [2,3,4] 169167398400,
xp 15 9 [1,4,4] 107675568000,
xp 15 9 [2,2,5] 99502603200,
xp 15 9 [1,3,5] 229621392000,
xp 15 9 [1,2,6] 282032150400,
xp 15 9 [1,1,7] 205232227200,
xp 15 9 [5,6] 82136480025600,
xp 15 9 [4,7] 91161854784000,
xp 15 9 [3,8] 112525379366400,
xp 15 9 [2,9] 156910026873600,
xp 15 9 [1,10] 258160347244800,
xm 15 9 [13] 172571918238720000,
xm 16 9 [3,3,4] 140756616000,
xm 16 9 [2,4,4] 154378224000,
xm 16 9 [2,3,5] 328734806400,
xm 16 9 [1,4,5] 408648240000,
xm 16 9 [2,2,6] 200432232000,
xm 16 9 [1,3,6] 454313059200,
xm 16 9 [1,2,7] 570810240000,
xm 16 9 [1,1,8] 413318505600,
xm 16 9 [6,6] 96451881926400,
xm 16 9 [5,7] 201632490259200,
xm 16 9 [4,8] 230303250777600,
xm 16 9 [3,9] 288613073548800,
xm 16 9 [2,10] 404048028384000,
xm 16 9 [1,11] 656049333139200,
xp 16 9 [14] 517715754716160000,
xp 17 9 [3,4,4] 238053816000,
xp 17 9 [3,3,5] 252972720000,
xp 17 9 [2,4,5] 551350800000,
xp 17 9 [1,5,5] 356107752000,
xp 17 9 [2,3,6] 611545334400,
xp 17 9 [1,4,6] 743350608000,
xp 17 9 [2,2,7] 381145564800,
xp 17 9 [1,3,7] 850247798400,
xp 17 9 [1,2,8] 1082463782400,
xp 17 9 [1,1,9] 776431656000,
xp 17 9 [6,7] 430301148076800,
xp 17 9 [5,8] 464322476217600,
xp 17 9 [4,9] 541061167046400,
xp 17 9 [3,10] 684955163692800,
xp 17 9 [2,11] 959920164403200,
xp 17 9 [1,12] 1536495587827200,
xm 17 9 [15] 1423718325469440000,
xm 18 9 [4,4,4] 125621496000,
xm 18 9 [3,4,5] 799134336000,
xm 18 9 [2,5,5] 458594136000,
xm 18 9 [3,3,6] 441859017600,
xm 18 9 [2,4,6] 956626070400,
xm 18 9 [1,5,6] 1207782576000,
xm 18 9 [2,3,7] 1091025936000,
xm 18 9 [1,4,7] 1299112214400,
xm 18 9 [2,2,8] 688864176000,
xm 18 9 [1,3,8] 1515501187200,
xm 18 9 [1,2,9] 1942571030400,
xm 18 9 [1,1,10] 1377079704000,
xm 18 9 [7,7] 442676832998400,
xm 18 9 [6,8] 915121420012800,
xm 18 9 [5,9] 1010636135308800,
xm 18 9 [4,10] 1194485119027200,
xm 18 9 [3,11] 1522396574899200,
xm 18 9 [2,12] 2131251317395200,
xm 18 9 [1,13] 3361452033139200,
xp 10 10 [1,1,2] 259459200,
xp 10 10 [3,3] 17606160000,
xp 10 10 [2,4] 41513472000,
xp 10 10 [1,5] 71610739200,
xm 10 10 [8] 20035439424000,
xm 11 10 [1,2,2] 2075673600,
xm 11 10 [1,1,3] 2594592000,
xm 11 10 [3,4] 454053600000,
xm 11 10 [2,5] 588453465600,
xm 11 10 [1,6] 1027458432000,
xp 11 10 [9] 340602470208000,
xp 12 10 [2,2,2] 2854051200,
xp 12 10 [1,2,3] 21275654400,
xp 12 10 [1,1,4] 14789174400,
xp 12 10 [4,4] 1485403920000,
xp 12 10 [3,5] 3283715635200,
xp 12 10 [2,6] 4471000934400,
xp 12 10 [1,7] 7842932697600,
xm 12 10 [10] 3065422231872000,
xm 13 10 [2,2,3] 30616185600,
xm 13 10 [1,3,3] 37621584000,
xm 13 10 [1,2,4] 84064780800,
xm 13 10 [1,1,5] 61751289600,
xm 13 10 [4,5] 14675012352000,
xm 13 10 [3,6] 17264415168000,
xm 13 10 [2,7] 24145273152000,
xm 13 10 [1,8] 42297038784000,
xp 13 10 [11] 19414340801856000,
xp 14 10 [2,3,3] 85880995200,
xp 14 10 [2,2,4] 95740444800,
xp 14 10 [1,3,4] 231956524800,
xp 14 10 [1,2,5] 276583507200,
xp 14 10 [1,1,6] 208864656000,
xp 14 10 [5,5] 27954134208000,
xp 14 10 [4,6] 59749302412800,
xp 14 10 [3,7] 73117678233600,
xp 14 10 [2,8] 103807550246400,
xp 14 10 [1,9] 180764186803200,
xm 14 10 [12] 97071704009280000,
xm 15 10 [3,3,3] 67459392000,
xm 15 10 [2,3,4] 449902252800,
xm 15 10 [1,4,4] 298118620800,
xm 15 10 [2,2,5] 267242976000,
xm 15 10 [1,3,5] 637231795200,
xm 15 10 [1,2,6] 791869478400,
xm 15 10 [1,1,7] 604799395200,
xm 15 10 [5,6] 187915920192000,
xm 15 10 [4,7] 210118362854400,
xm 15 10 [3,8] 263714330880000,
xm 15 10 [2,9] 377556725145600,
xm 15 10 [1,10] 651374397273600,
xp 15 10 [13] 407701156838976000,
xp 16 10 [3,3,4] 463653590400,
xp 16 10 [2,4,4] 513469756800,
xp 16 10 [2,3,5] 1096474579200,
xp 16 10 [1,4,5] 1424431008000,
xp 16 10 [2,2,6] 677966889600,
xp 16 10 [1,3,6] 1590484896000,
xp 16 10 [1,2,7] 2030527699200,
xp 16 10 [1,1,8] 1552863312000,
xp 16 10 [6,6] 271778322816000,
xp 16 10 [5,7] 569881376064000,
xp 16 10 [4,8] 657455083084800,
xp 16 10 [3,9] 838851312499200,
xp 16 10 [2,10] 1206133453324800,
xp 16 10 [1,11] 2056971780864000,
xm 16 10 [14] 1494904241742912000,
xm 17 10 [3,4,4] 953253100800,
xm 17 10 [3,3,5] 1016561145600,
xm 17 10 [2,4,5] 2241727488000,
xm 17 10 [1,5,5] 1521987667200,
xm 17 10 [2,3,6] 2499111014400,
xm 17 10 [1,4,6] 3182007628800,
xm 17 10 [2,2,7] 1586074089600,
xm 17 10 [1,3,7] 3662785526400,
xm 17 10 [1,2,8] 4759000646400,
xm 17 10 [1,1,9] 3621790972800,
xm 17 10 [6,7] 1460672269056000,
xm 17 10 [5,8] 1584792361152000,
xm 17 10 [4,9] 1868775644736000,
xm 17 10 [3,10] 2410358769561600,
xm 17 10 [2,11] 3471028572211200,
xm 17 10 [1,12] 5843224600012800,
xp 17 10 [15] 4911828222869568000,
xp 18 10 [4,4,4] 598572374400,
xp 18 10 [3,4,5] 3824428608000,
xp 18 10 [2,5,5] 2234203171200,
xp 18 10 [3,3,6] 2127565440000,
xp 18 10 [2,4,6] 4668708844800,
xp 18 10 [1,5,6] 6207820819200,
xp 18 10 [2,3,7] 5363281123200,
xp 18 10 [1,4,7] 6696382492800,
xp 18 10 [2,2,8] 3461964105600,
xp 18 10 [1,3,8] 7878478608000,
xp 18 10 [1,2,9] 10349308569600,
xp 18 10 [1,1,10] 7808684083200,
xp 18 10 [7,7] 1774950008832000,
xp 18 10 [6,8] 3677771889792000,
xp 18 10 [5,9] 4091822070336000,
xp 18 10 [4,10] 4900291748352000,
xp 18 10 [3,11] 6365704336992000,
xp 18 10 [2,12] 9162874296576000,
xp 18 10 [1,13] 15213577002624000,
xp 11 11 [1,2,2] 518918400,
xp 11 11 [1,1,3] 648648000,
xp 11 11 [3,4] 108972864000,
xp 11 11 [2,5] 141664723200,
xp 11 11 [1,6] 256864608000,
xm 11 11 [9] 88304344128000,
xm 12 11 [2,2,2] 1556755200,
xm 12 11 [1,2,3] 11675664000,
xm 12 11 [1,1,4] 8172964800,
xm 12 11 [4,4] 762810048000,
xm 12 11 [3,5] 1689079392000,
xm 12 11 [2,6] 2328905779200,
xm 12 11 [1,7] 4229703878400,
xp 12 11 [10] 1677782538432000,
xp 13 11 [2,2,3] 27113486400,
xp 13 11 [1,3,3] 33729696000,
xp 13 11 [1,2,4] 75502627200,
xp 13 11 [1,1,5] 56302646400,
xp 13 11 [4,5] 12041501472000,
xp 13 11 [3,6] 14236526304000,
xp 13 11 [2,7] 20258055417600,
xp 13 11 [1,8] 36731638944000,
xm 13 11 [11] 16777825384320000,
xm 14 11 [2,3,3] 108972864000,
xm 14 11 [2,2,4] 121816094400,
xm 14 11 [1,3,4] 300453753600,
xm 14 11 [1,2,5] 359610451200,
xm 14 11 [1,1,6] 277880803200,
xm 14 11 [5,5] 32419427040000,
xm 14 11 [4,6] 69423498144000,
xm 14 11 [3,7] 85655784614400,
xm 14 11 [2,8] 123997108435200,
xm 14 11 [1,9] 223729073568000,
xp 14 11 [12] 117444777690240000,
xp 15 11 [3,3,3] 114162048000,
xp 15 11 [2,3,4] 764366803200,
xp 15 11 [1,4,4] 519956236800,
xp 15 11 [2,2,5] 456388732800,
xp 15 11 [1,3,5] 1112820508800,
xp 15 11 [1,2,6] 1391220230400,
xp 15 11 [1,1,7] 1095177283200,
xp 15 11 [5,6] 287999712000000,
xp 15 11 [4,7] 323278898342400,
xp 15 11 [3,8] 410127157440000,
xp 15 11 [2,9] 599282254771200,
xp 15 11 [1,10] 1073009089152000,
xm 15 11 [13] 645946277296320000,
xm 16 11 [3,3,4] 1002550348800,
xm 16 11 [2,4,4] 1116193478400,
xm 16 11 [2,3,5] 2387284099200,
xm 16 11 [1,4,5] 3198353558400,
xm 16 11 [2,2,6] 1487479593600,
xm 16 11 [1,3,6] 3579758582400,
xm 16 11 [1,2,7] 4609552147200,
xm 16 11 [1,1,8] 3656039587200,
xm 16 11 [6,6] 526393419552000,
xm 16 11 [5,7] 1105487672889600,
xm 16 11 [4,8] 1282781852352000,
xm 16 11 [3,9] 1657376072352000,
xm 16 11 [2,10] 2433415426041600,
xm 16 11 [1,11] 4314297955968000,
xp 16 11 [14] 2971352875563072000,
xp 17 11 [3,4,4] 2548927180800,
xp 17 11 [3,3,5] 2723543222400,
xp 17 11 [2,4,5] 6047215574400,
xp 17 11 [1,5,5] 4257206553600,
xp 17 11 [2,3,6] 6760728374400,
xp 17 11 [1,4,6] 8908531632000,
xp 17 11 [2,2,7] 4335303772800,
xp 17 11 [1,3,7] 10290670790400,
xp 17 11 [1,2,8] 13523532422400,
xp 17 11 [1,1,9] 10728378460800,
xp 17 11 [6,7] 3469202498361600,
xp 17 11 [5,8] 3775263684192000,
xp 17 11 [4,9] 4485112920288000,
xp 17 11 [3,10] 5864818351392000,
xp 17 11 [2,11] 8627705447961600,
xp 17 11 [1,12] 15122749677235200,
xm 17 11 [15] 11885411502252288000,
xm 18 11 [4,4,4] 1930376448000,
xm 18 11 [3,4,5] 12363749798400,
xm 18 11 [2,5,5] 7301181888000,
xm 18 11 [3,3,6] 6901874179200,
xm 18 11 [2,4,6] 15272546889600,
xm 18 11 [1,5,6] 21118941043200,
xm 18 11 [2,3,7] 17616241843200,
xm 18 11 [1,4,7] 22818917721600,
xm 18 11 [2,2,8] 11520766857600,
xm 18 11 [1,3,8] 26973897350400,
xm 18 11 [1,2,9] 35943920812800,
xm 18 11 [1,1,10] 28383539184000,
xm 18 11 [7,7] 5048382757017600,
xm 18 11 [6,8] 10473483148128000,
xm 18 11 [5,9] 11703094026624000,
xm 18 11 [4,10] 14139454833504000,
xm 18 11 [3,11] 18635184824256000,
xm 18 11 [2,12] 27414714379852800,
xm 18 11 [1,13] 47457277515648000,
xp 12 12 [2,2,2] 345945600,
xp 12 12 [1,2,3] 2594592000,
xp 12 12 [1,1,4] 1816214400,
xp 12 12 [4,4] 163862899200,
xp 12 12 [3,5] 363242880000,
xp 12 12 [2,6] 502313011200,
xp 12 12 [1,7] 939934195200,
xm 12 12 [10] 383493151641600,
xm 13 12 [2,2,3] 12972960000,
xm 13 12 [1,3,3] 16216200000,
xm 13 12 [1,2,4] 36324288000,
xm 13 12 [1,1,5] 27243216000,
xm 13 12 [4,5] 5492232345600,
xm 13 12 [3,6] 6507236736000,
xm 13 12 [2,7] 9349871731200,
xm 13 12 [1,8] 17438252832000,
xp 13 12 [11] 8053356184473600,
xp 14 12 [2,3,3] 83675592000,
xp 14 12 [2,2,4] 93664771200,
xp 14 12 [1,3,4] 233253820800,
xp 14 12 [1,2,5] 279697017600,
xp 14 12 [1,1,6] 218724105600,
xp 14 12 [5,5] 23443695475200,
xp 14 12 [4,6] 50252057856000,
xp 14 12 [3,7] 62263980979200,
xp 14 12 [2,8] 91346762707200,
xp 14 12 [1,9] 169559181792000,
xm 14 12 [12] 88586918029209600,
xm 15 12 [3,3,3] 124324200000,
xm 15 12 [2,3,4] 834161328000,
xm 15 12 [1,4,4] 576648072000,
xm 15 12 [2,2,5] 499458960000,
xm 15 12 [1,3,5] 1235025792000,
xm 15 12 [1,2,6] 1548971424000,
xm 15 12 [1,1,7] 1241512272000,
xm 15 12 [5,6] 292701112704000,
xm 15 12 [4,7] 329243346432000,
xm 15 12 [3,8] 420373201248000,
xm 15 12 [2,9] 623695808736000,
xm 15 12 [1,10] 1150058958048000,
xp 15 12 [13] 679166371557273600,
xp 16 12 [3,3,4] 1447652606400,
xp 16 12 [2,4,4] 1616560545600,
xp 16 12 [2,3,5] 3460666809600,
xp 16 12 [1,4,5] 4733054726400,
xp 16 12 [2,2,6] 2165705942400,
xp 16 12 [1,3,6] 5304902803200,
xp 16 12 [1,2,7] 6863733676800,
xp 16 12 [1,1,8] 5573961993600,
xp 16 12 [6,6] 702620702784000,
xp 16 12 [5,7] 1476878090688000,
xp 16 12 [4,8] 1719423145440000,
xp 16 12 [3,9] 2239887922272000,
xp 16 12 [2,10] 3342579143904000,
xp 16 12 [1,11] 6111922104288000,
xm 16 12 [14] 4074998229343641600,
xm 17 12 [3,4,4] 4667022360000,
xm 17 12 [3,3,5] 4992643656000,
xm 17 12 [2,4,5] 11129761843200,
xm 17 12 [1,5,5] 8038564934400,
xm 17 12 [2,3,6] 12464419968000,
xm 17 12 [1,4,6] 16830599385600,
xm 17 12 [2,2,7] 8041418985600,
xm 17 12 [1,3,7] 19482791328000,
xm 17 12 [1,2,8] 25772082336000,
xm 17 12 [1,1,9] 21037211395200,
xm 17 12 [6,7] 5826408530342400,
xm 17 12 [5,8] 6351376999968000,
xm 17 12 [4,9] 7580000376748800,
xm 17 12 [3,10] 10007701992288000,
xm 17 12 [2,11] 14972632292217600,
xm 17 12 [1,12] 27108172156665600,
xp 17 12 [15] 20374991146718208000,
xp 18 12 [4,4,4] 4341401064000,
xp 18 12 [3,4,5] 27846977558400,
xp 18 12 [2,5,5] 16552978041600,
xp 18 12 [3,3,6] 15578060097600,
xp 18 12 [2,4,6] 34647662649600,
xp 18 12 [1,5,6] 49319042572800,
xp 18 12 [2,3,7] 40064132908800,
xp 18 12 [1,4,7] 53344292601600,
xp 18 12 [2,2,8] 26409573590400,
xp 18 12 [1,3,8] 63236952979200,
xp 18 12 [1,2,9] 84987936633600,
xp 18 12 [1,1,10] 69344882006400,
xp 18 12 [7,7] 10344820617331200,
xp 18 12 [6,8] 21477277549728000,
xp 18 12 [5,9] 24060639117715200,
xp 18 12 [4,10] 29235490591507200,
xp 18 12 [3,11] 38943328840416000,
xp 18 12 [2,12] 58292220540153600,
xp 18 12 [1,13] 104382042212448000,
xp 13 13 [2,2,3] 2594592000,
xp 13 13 [1,3,3] 3243240000]
def extD3_2 : PL := [
xp 13 13 [1,2,4] 7264857600,
xp 13 13 [1,1,5] 5448643200,
xp 13 13 [4,5] 1067934067200,
xp 13 13 [3,6] 1267198732800,
xp 13 13 [2,7] 1825451147520,
xp 13 13 [1,8] 3487650566400,
xm 13 13 [11] 1647277401369600,
xm 14 13 [2,3,3] 35675640000,
xm 14 13 [2,2,4] 39956716800,
xm 14 13 [1,3,4] 99891792000,
xm 14 13 [1,2,5] 119870150400,
xm 14 13 [1,1,6] 94183689600,
xm 14 13 [5,5] 9611406604800,
xm 14 13 [4,6] 20617665868800,
xm 14 13 [3,7] 25600839264000,
xm 14 13 [2,8] 37844718912000,
xm 14 13 [1,9] 71904965932800,
xp 14 13 [12] 37887380231500800,
xp 15 13 [3,3,3] 84324240000,
xp 15 13 [2,3,4] 566399433600,
xp 15 13 [1,4,4] 395026632000,
xp 15 13 [2,2,5] 339632092800,
xp 15 13 [1,3,5] 846355910400,
xp 15 13 [1,2,6] 1063263801600,
xp 15 13 [1,1,7] 860496436800,
xp 15 13 [5,6] 189264070195200,
xp 15 13 [4,7] 213180500332800,
xp 15 13 [3,8] 273149824147200,
xp 15 13 [2,9] 409539222892800,
xp 15 13 [1,10] 773293756435200,
xm 15 13 [13] 454648562778009600,
xm 16 13 [3,3,4] 1384214832000,
xm 16 13 [2,4,4] 1548322776000,
xm 16 13 [2,3,5] 3316407494400,
xm 16 13 [1,4,5] 4595022432000,
xm 16 13 [2,2,6] 2080603324800,
xm 16 13 [1,3,6] 5154416467200,
xm 16 13 [1,2,7] 6687041961600,
xm 16 13 [1,1,8] 5509745841600,
xm 16 13 [6,6] 635072056819200,
xm 16 13 [5,7] 1335713085907200,
xm 16 13 [4,8] 1558237749868800,
xm 16 13 [3,9] 2040201376012800,
xm 16 13 [2,10] 3081821610067200,
xm 16 13 [1,11] 5776365596601600,
xp 16 13 [14] 3788738023150080000,
xp 17 13 [3,4,4] 5878048176000,
xp 17 13 [3,3,5] 6292793707200,
xp 17 13 [2,4,5] 14061131884800,
xp 17 13 [1,5,5] 10334259936000,
xp 17 13 [2,3,6] 15764222073600,
xp 17 13 [1,4,6] 21644605382400,
xp 17 13 [2,2,7] 10207254657600,
xp 17 13 [1,3,7] 25087888425600,
xp 17 13 [1,2,8] 33315339657600,
xp 17 13 [1,1,9] 27715691203200,
xp 17 13 [6,7] 6887738841984000,
xp 17 13 [5,8] 7516988634355200,
xp 17 13 [4,9] 8996357533363200,
xp 17 13 [3,10] 11954182034995200,
xp 17 13 [2,11] 18121312905696000,
xp 17 13 [1,12] 33675492378528000,
xm 17 13 [15] 24626797150475520000,
xm 18 13 [4,4,4] 6892533648000,
xm 18 13 [3,4,5] 44252063856000,
xm 18 13 [2,5,5] 26411389804800,
xm 18 13 [3,3,6] 24788861697600,
xm 18 13 [2,4,6] 55305804153600,
xm 18 13 [1,5,6] 80381497996800,
xm 18 13 [2,3,7] 64053471081600,
xm 18 13 [1,4,7] 87000042729600,
xm 18 13 [2,2,8] 42429752164800,
xm 18 13 [1,3,8] 103319507491200,
xm 18 13 [1,2,9] 139580227987200,
xm 18 13 [1,1,10] 116539472649600,
xm 18 13 [7,7] 15319261376939520,
xm 18 13 [6,8] 31821089735635200,
xm 18 13 [5,9] 35708421632083200,
xm 18 13 [4,10] 43546508150745600,
xm 18 13 [3,11] 58444860906432000,
xm 18 13 [2,12] 88697172310306560,
xm 18 13 [1,13] 163248240989433600,
xp 14 14 [2,3,3] 6486480000,
xp 14 14 [2,2,4] 7264857600,
xp 14 14 [1,3,4] 18162144000,
xp 14 14 [1,2,5] 21794572800,
xp 14 14 [1,1,6] 17124307200,
xp 14 14 [5,5] 1705920652800,
xp 14 14 [4,6] 3661488230400,
xp 14 14 [3,7] 4553508960000,
xp 14 14 [2,8] 6745939200000,
xp 14 14 [1,9] 13073630169600,
xm 14 14 [12] 7016181524352000,
xm 15 14 [3,3,3] 32432400000,
xm 15 14 [2,3,4] 217945728000,
xm 15 14 [1,4,4] 152562009600,
xm 15 14 [2,2,5] 130767436800,
xm 15 14 [1,3,5] 326918592000,
xm 15 14 [1,2,6] 410983372800,
xm 15 14 [1,1,7] 333923990400,
xm 15 14 [5,6] 70483648435200,
xm 15 14 [4,7] 79473909715200,
xm 15 14 [3,8] 102032330400000,
xm 15 14 [2,9] 153901856908800,
xm 15 14 [1,10] 296335617177600,
xp 15 14 [13] 175404538108800000,
xp 16 14 [3,3,4] 841945104000,
xp 16 14 [2,4,4] 942615273600,
xp 16 14 [2,3,5] 2019630412800,
xp 16 14 [1,4,5] 2818764748800,
xp 16 14 [2,2,6] 1268755488000,
xp 16 14 [1,3,6] 3163326566400,
xp 16 14 [1,2,7] 4109833728000,
xp 16 14 [1,1,8] 3413445235200,
xp 16 14 [6,6] 371183369356800,
xp 16 14 [5,7] 781073900006400,
xp 16 14 [4,8] 912502957766400,
xp 16 14 [3,9] 1198267688217600,
xp 16 14 [2,10] 1825262261222400,
xp 16 14 [1,11] 3490659255283200,
xm 16 14 [14] 2280258995414400000,
xm 17 14 [3,4,4] 5010935529600,
xm 17 14 [3,3,5] 5366913552000,
xm 17 14 [2,4,5] 12008809612800,
xm 17 14 [1,5,5] 8924877561600,
xm 17 14 [2,3,6] 13472159500800,
xm 17 14 [1,4,6] 18696629952000,
xm 17 14 [2,2,7] 8741958825600,
xm 17 14 [1,3,7] 21687935068800,
xm 17 14 [1,2,8] 28865873836800,
xm 17 14 [1,1,9] 24302245968000,
xm 17 14 [6,7] 5605607713305600,
xm 17 14 [5,8] 6123127109299200,
xm 17 14 [4,9] 7341875468928000,
xm 17 14 [3,10] 9795360064089600,
xm 17 14 [2,11] 14995453804531200,
xm 17 14 [1,12] 28461292879219200,
xp 17 14 [15] 20522330958729600000,
xp 18 14 [4,4,4] 7698932841600,
xp 18 14 [3,4,5] 49459150540800,
xp 18 14 [2,5,5] 29593397433600,
xp 18 14 [3,3,6] 27729961459200,
xp 18 14 [2,4,6] 61985840716800,
xp 18 14 [1,5,6] 91397097792000,
xp 18 14 [2,3,7] 71863711920000,
xp 18 14 [1,4,7] 98965263196800,
xp 18 14 [2,2,8] 47748276576000,
xp 18 14 [1,3,8] 117663968822400,
xp 18 14 [1,2,9] 159467256748800,
xp 18 14 [1,1,10] 135239216112000,
xp 18 14 [7,7] 16241119499404800,
xp 18 14 [6,8] 33749520758553600,
xp 18 14 [5,9] 37918775832537600,
xp 18 14 [4,10] 46352468069107200,
xp 18 14 [3,11] 62528420758003200,
xp 18 14 [2,12] 95921224554355200,
xp 18 14 [1,13] 180529401135283200,
xp 15 15 [3,3,3] 5405400000,
xp 15 15 [2,3,4] 36324288000,
xp 15 15 [1,4,4] 25427001600,
xp 15 15 [2,2,5] 21794572800,
xp 15 15 [1,3,5] 54486432000,
xp 15 15 [1,2,6] 68497228800,
xp 15 15 [1,1,7] 55653998400,
xp 15 15 [5,6] 11507534438400,
xp 15 15 [4,7] 12985932960000,
xp 15 15 [3,8] 16696199520000,
xp 15 15 [2,9] 25229812608000,
xp 15 15 [1,10] 49389269529600,
xm 15 15 [13] 29683844910720000,
xm 16 15 [3,3,4] 295134840000,
xm 16 15 [2,4,4] 330551020800,
xm 16 15 [2,3,5] 708323616000,
xm 16 15 [1,4,5] 991653062400,
xm 16 15 [2,2,6] 445231987200,
xm 16 15 [1,3,6] 1113079968000,
xm 16 15 [1,2,7] 1447003958400,
xm 16 15 [1,1,8] 1205836632000,
xm 16 15 [6,6] 126582878822400,
xm 16 15 [5,7] 266471344339200,
xm 16 15 [4,8] 311662391040000,
xm 16 15 [3,9] 409984454880000,
xm 16 15 [2,10] 627534248140800,
xm 16 15 [1,11] 1220205482496000,
xp 16 15 [14] 801463812589440000,
xp 17 15 [3,4,4] 2763370209600,
xp 17 15 [3,3,5] 2960429472000,
xp 17 15 [2,4,5] 6629182560000,
xp 17 15 [1,5,5] 4958265312000,
xp 17 15 [2,3,6] 7439733100800,
xp 17 15 [1,4,6] 10388227449600,
xp 17 15 [2,2,7] 4833335707200,
xp 17 15 [1,3,7] 12055512268800,
xp 17 15 [1,2,8] 16065454204800,
xp 17 15 [1,1,9] 13616678275200,
xp 17 15 [6,7] 2989441680825600,
xp 17 15 [5,8] 3267780170054400,
xp 17 15 [4,9] 3923606887200000,
xp 17 15 [3,10] 5247686341497600,
xp 17 15 [2,11] 8088219198259200,
xp 17 15 [1,12] 15618630175948800,
xm 17 15 [15] 11220493376252160000,
xm 18 15 [4,4,4] 5922372456000,
xm 18 15 [3,4,5] 38060588966400,
xm 18 15 [2,5,5] 22808020435200,
xm 18 15 [3,3,6] 21350897568000,
xm 18 15 [2,4,6] 47781487353600,
xm 18 15 [1,5,6] 71115691046400,
xm 18 15 [2,3,7] 55431382406400,
xm 18 15 [1,4,7] 77025133785600,
xm 18 15 [2,2,8] 36898600939200,
xm 18 15 [1,3,8] 91643584032000,
xm 18 15 [1,2,9] 124442340422400,
xm 18 15 [1,1,10] 106595958268800,
xm 18 15 [7,7] 12016143486547200,
xm 18 15 [6,8] 24978182329900800,
xm 18 15 [5,9] 28091170179072000,
xm 18 15 [4,10] 34396453387296000,
xm 18 15 [3,11] 46553018095584000,
xm 18 15 [2,12] 71992123467264000,
xm 18 15 [1,13] 137984903312256000,
xp 16 16 [3,3,4] 45405360000,
xp 16 16 [2,4,4] 50854003200,
xp 16 16 [2,3,5] 108972864000,
xp 16 16 [1,4,5] 152562009600,
xp 16 16 [2,2,6] 68497228800,
xp 16 16 [1,3,6] 171243072000,
xp 16 16 [1,2,7] 222615993600,
xp 16 16 [1,1,8] 185513328000,
xp 16 16 [6,6] 19126533888000,
xp 16 16 [5,7] 40276370534400,
xp 16 16 [4,8] 47148925824000,
xp 16 16 [3,9] 62104154112000,
xp 16 16 [2,10] 95202845337600,
xp 16 16 [1,11] 187723920384000,
xm 16 16 [14] 124903451312640000,
xm 17 16 [3,4,4] 889945056000,
xm 17 16 [3,3,5] 953512560000,
xm 17 16 [2,4,5] 2135868134400,
xm 17 16 [1,5,5] 1601901100800,
xm 17 16 [2,3,6] 2397403008000,
xm 17 16 [1,4,6] 3356364211200,
xm 17 16 [2,2,7] 1558311955200,
xm 17 16 [1,3,7] 3895779888000,
xm 17 16 [1,2,8] 5194373184000,
xm 17 16 [1,1,9] 4415217206400,
xm 17 16 [6,7] 940329956966400,
xm 17 16 [5,8] 1028485890432000,
xm 17 16 [4,9] 1236260817792000,
xm 17 16 [3,10] 1655993154816000,
xm 17 16 [2,11] 2562431513241600,
xm 17 16 [1,12] 5019268321267200,
xp 17 16 [15] 3622200088066560000,
xp 18 16 [4,4,4] 2987672688000,
xp 18 16 [3,4,5] 19204651065600,
xp 18 16 [2,5,5] 11518431724800,
xp 18 16 [3,3,6] 10776637872000,
xp 18 16 [2,4,6] 24132819110400,
xp 18 16 [1,5,6] 36113607129600,
xp 18 16 [2,3,7] 28006804425600,
xp 18 16 [1,4,7] 39120479798400,
xp 18 16 [2,2,8] 18662640796800,
xp 18 16 [1,3,8] 46563845328000,
xp 18 16 [1,2,9] 63297147513600,
xp 18 16 [1,1,10] 54530799523200,
xp 18 16 [7,7] 5890624682342400,
xp 18 16 [6,8] 12248331967872000,
xp 18 16 [5,9] 13785866430336000,
xp 18 16 [4,10] 16901680828032000,
xp 18 16 [3,11] 22922431564032000,
xp 18 16 [2,12] 35646425931916800,
xp 18 16 [1,13] 69352255836864000,
xp 17 17 [3,4,4] 127135008000,
xp 17 17 [3,3,5] 136216080000,
xp 17 17 [2,4,5] 305124019200,
xp 17 17 [1,5,5] 228843014400,
xp 17 17 [2,3,6] 342486144000,
xp 17 17 [1,4,6] 479480601600,
xp 17 17 [2,2,7] 222615993600,
xp 17 17 [1,3,7] 556539984000,
xp 17 17 [1,2,8] 742053312000,
xp 17 17 [1,1,9] 630745315200,
xp 17 17 [6,7] 132233900198400,
xp 17 17 [5,8] 144700395840000,
xp 17 17 [4,9] 174085706995200,
xp 17 17 [3,10] 233457681600000,
xp 17 17 [2,11] 361703768025600,
xp 17 17 [1,12] 717038331609600,
xm 17 17 [15] 523206679387392000,
xm 18 17 [4,4,4] 889945056000,
xm 18 17 [3,4,5] 5721075360000,
xm 18 17 [2,5,5] 3432645216000,
xm 18 17 [3,3,6] 3210807600000,
xm 18 17 [2,4,6] 7192209024000,
xm 18 17 [1,5,6] 10788313536000,
xm 18 17 [2,3,7] 8348099760000,
xm 18 17 [1,4,7] 11687339664000,
xm 18 17 [2,2,8] 5565399840000,
xm 18 17 [1,3,8] 13913499600000,
xm 18 17 [1,2,9] 18922359456000,
xm 18 17 [1,1,10] 16342037712000,
xm 18 17 [7,7] 1719040702579200,
xm 18 17 [6,8] 3575212857216000,
xm 18 17 [5,9] 4026678092236800,
xm 18 17 [4,10] 4941832204108800,
xm 18 17 [3,11] 6711130153728000,
xm 18 17 [2,12] 10470301659417600,
xm 18 17 [1,13] 20624489645760000,
xp 18 18 [4,4,4] 118659340800,
xp 18 18 [3,4,5] 762810048000,
xp 18 18 [2,5,5] 457686028800,
xp 18 18 [3,3,6] 428107680000,
xp 18 18 [2,4,6] 958961203200,
xp 18 18 [1,5,6] 1438441804800,
xp 18 18 [2,3,7] 1113079968000,
xp 18 18 [1,4,7] 1558311955200,
xp 18 18 [2,2,8] 742053312000,
xp 18 18 [1,3,8] 1855133280000,
xp 18 18 [1,2,9] 2522981260800,
xp 18 18 [1,1,10] 2178938361600,
xp 18 18 [7,7] 226022018302080,
xp 18 18 [6,8] 470164978483200,
xp 18 18 [5,9] 529826064768000,
xp 18 18 [4,10] 650776257331200,
xp 18 18 [3,11] 884648974809600,
xp 18 18 [2,12] 1381648054026240,
xp 18 18 [1,13] 2749931952768000]
/-- row 3 -/
def extD3 : PL := extD3_0 ++ extD3_1 ++ extD3_2
def extD4_0 : PL := [
xm 7 7 [1,2] 1037836800,
xp 7 7 [5] 65383718400,
xp 8 7 [2,2] 3113510400,
xp 8 7 [1,3] 7783776000,
xm 8 7 [6] 719220902400,
xp 9 7 [1,1,1] 129729600,
xm 9 7 [2,3] 24389164800,
xm 9 7 [1,4] 33729696000,
xp 9 7 [7] 4315325414400,
xm 10 7 [1,1,2] 648648000,
xp 10 7 [3,3] 33729696000,
xp 10 7 [2,4] 75243168000,
xp 10 7 [1,5] 108972864000,
xm 10 7 [8] 18699743462400,
xp 11 7 [1,2,2] 908107200,
xp 11 7 [1,1,3] 1037836800,
xm 11 7 [3,4] 166053888000,
xm 11 7 [2,5] 197188992000,
xm 11 7 [1,6] 290594304000,
xp 11 7 [9] 65449102118400,
xm 12 7 [2,2,2] 389188800,
xm 12 7 [1,2,3] 2594592000,
xm 12 7 [1,1,4] 1556755200,
xp 12 7 [4,4] 173837664000,
xp 12 7 [3,5] 371026656000,
xp 12 7 [2,6] 457686028800,
xp 12 7 [1,7] 675631756800,
xm 12 7 [10] 196347306355200,
xp 13 7 [2,2,3] 1556755200,
xp 13 7 [1,3,3] 1686484800,
xp 13 7 [1,2,4] 3632428800,
xp 13 7 [1,1,5] 2205403200,
xm 13 7 [4,5] 687566880000,
xm 13 7 [3,6] 765404640000,
xm 13 7 [2,7] 966226060800,
xm 13 7 [1,8] 1416647232000,
xp 13 7 [11] 523592816947200,
xm 14 7 [2,3,3] 1945944000,
xm 14 7 [2,2,4] 2075673600,
xm 14 7 [1,3,4] 4410806400,
xm 14 7 [1,2,5] 4929724800,
xm 14 7 [1,1,6] 2983780800,
xp 14 7 [5,5] 617512896000,
xp 14 7 [4,6] 1289512224000,
xp 14 7 [3,7] 1477360684800,
xp 14 7 [2,8] 1889900812800,
xp 14 7 [1,9] 2739889152000,
xm 14 7 [12] 1271582555443200,
xp 15 7 [3,3,3] 778377600,
xp 15 7 [2,3,4] 4929724800,
xp 15 7 [1,4,4] 2724321600,
xp 15 7 [2,2,5] 2724321600,
xp 15 7 [1,3,5] 5708102400,
xp 15 7 [1,2,6] 6486480000,
xp 15 7 [1,1,7] 3891888000,
xm 15 7 [5,6] 2143132992000,
xm 15 7 [4,7] 2306592288000,
xm 15 7 [3,8] 2695781088000,
xm 15 7 [2,9] 3471564096000,
xm 15 7 [1,10] 4966049088000,
xp 15 7 [13] 2861060749747200,
xm 16 7 [3,3,4] 2854051200,
xm 16 7 [2,4,4] 2983780800,
xm 16 7 [2,3,5] 6227020800,
xm 16 7 [1,4,5] 6745939200,
xm 16 7 [2,2,6] 3502699200,
xm 16 7 [1,3,6] 7264857600,
xm 16 7 [1,2,7] 8302694400,
xm 16 7 [1,1,8] 4929724800,
xp 16 7 [6,6] 1743565824000,
xp 16 7 [5,7] 3596104512000,
xp 16 7 [4,8] 3956752800000,
xp 16 7 [3,9] 4688427744000,
xp 16 7 [2,10] 6050588544000,
xp 16 7 [1,11] 8533613088000,
xm 16 7 [14] 6040017138355200,
xp 17 7 [3,4,4] 3372969600,
xp 17 7 [3,3,5] 3502699200,
xp 17 7 [2,4,5] 7264857600,
xp 17 7 [1,5,5] 4021617600,
xp 17 7 [2,3,6] 7783776000,
xp 17 7 [1,4,6] 8302694400,
xp 17 7 [2,2,7] 4410806400,
xp 17 7 [1,3,7] 9081072000,
xp 17 7 [1,2,8] 10378368000,
xp 17 7 [1,1,9] 6097291200,
xm 17 7 [6,7] 5543086348800,
xm 17 7 [5,8] 5848210368000,
xm 17 7 [4,9] 6540966432000,
xm 17 7 [3,10] 7822694880000,
xm 17 7 [2,11] 10086216940800,
xm 17 7 [1,12] 14024807596800,
xp 17 7 [15] 12080034276710400,
xm 18 7 [4,4,4] 1297296000,
xm 18 7 [3,4,5] 8043235200,
xm 18 7 [2,5,5] 4281076800,
xm 18 7 [3,3,6] 4281076800,
xm 18 7 [2,4,6] 8821612800,
xm 18 7 [1,5,6] 9599990400,
xm 18 7 [2,3,7] 9599990400,
xm 18 7 [1,4,7] 10118908800,
xm 18 7 [2,2,8] 5448643200,
xm 18 7 [1,3,8] 11156745600,
xm 18 7 [1,2,9] 12713500800,
xm 18 7 [1,1,10] 7394587200,
xp 18 7 [7,7] 4206352550400,
xp 18 7 [6,8] 8608856256000,
xp 18 7 [5,9] 9241936704000,
xp 18 7 [4,10] 10463989536000,
xp 18 7 [3,11] 12588960384000,
xp 18 7 [2,12] 16183508140800,
xp 18 7 [1,13] 22194139968000,
xm 8 8 [2,2] 3269185920,
xm 8 8 [1,3] 7264857600,
xp 8 8 [6] 719220902400,
xm 9 8 [1,1,1] 216216000,
xp 9 8 [2,3] 54486432000,
xp 9 8 [1,4] 69016147200,
xm 9 8 [7] 9349871731200,
xp 10 8 [1,1,2] 1902700800,
xm 10 8 [3,3] 125318793600,
xm 10 8 [2,4] 268799731200,
xm 10 8 [1,5] 366875308800,
xp 10 8 [8] 65449102118400,
xm 11 8 [1,2,2] 4021617600,
xm 11 8 [1,1,3] 4756752000,
xp 11 8 [3,4] 886312627200,
xp 11 8 [2,5] 1002550348800,
xp 11 8 [1,6] 1427544518400,
xm 11 8 [9] 327245510592000,
xp 12 8 [1,1,1,1] 5405400,
xp 12 8 [2,2,2] 2335132800,
xp 12 8 [1,2,3] 16345929600,
xp 12 8 [1,1,4] 10378368000,
xm 12 8 [4,4] 1262269008000,
xm 12 8 [3,5] 2637143308800,
xm 12 8 [2,6] 3105726624000,
xm 12 8 [1,7] 4522373856000,
xp 12 8 [10] 1308982042368000,
xm 13 8 [1,1,1,2] 21621600,
xm 13 8 [2,2,3] 12454041600,
xm 13 8 [1,3,3] 14270256000,
xm 13 8 [1,2,4] 31048617600,
xm 13 8 [1,1,5] 20324304000,
xp 13 8 [4,5] 6411236832000,
xp 13 8 [3,6] 6919776864000,
xp 13 8 [2,7] 8397448899840,
xp 13 8 [1,8] 12346625491200,
xm 13 8 [11] 4450538944051200,
xp 14 8 [1,1,2,2] 32432400,
xp 14 8 [1,1,1,3] 21621600,
xp 14 8 [2,3,3] 19848628800,
xp 14 8 [2,2,4] 21535113600,
xp 14 8 [1,3,4] 48432384000,
xp 14 8 [1,2,5] 55264809600,
xp 14 8 [1,1,6] 36540504000,
xm 14 8 [5,5] 7219452240000,
xm 14 8 [4,6] 14871163507200,
xm 14 8 [3,7] 16473064608000,
xm 14 8 [2,8] 20432412000000,
xm 14 8 [1,9] 30087407750400,
xp 14 8 [12] 13351616832153600,
xm 15 8 [1,2,2,2] 21621600,
xm 15 8 [1,1,2,3] 64864800,
xm 15 8 [1,1,1,4] 21621600,
xm 15 8 [3,3,3] 9729720000,
xm 15 8 [2,3,4] 63048585600,
xm 15 8 [1,4,4] 37621584000,
xm 15 8 [2,2,5] 35805369600,
xm 15 8 [1,3,5] 79135056000,
xm 15 8 [1,2,6] 92886393600,
xm 15 8 [1,1,7] 61362100800,
xp 15 8 [5,6] 30425223628800,
xp 15 8 [4,7] 32052551731200,
xp 15 8 [3,8] 36255271852800,
xp 15 8 [2,9] 45670527302400,
xp 15 8 [1,10] 67007414073600,
xm 15 8 [13] 36240102830131200,
xp 16 8 [2,2,2,2] 5405400,
xp 16 8 [1,2,2,3] 64864800,
xp 16 8 [1,1,3,3] 32432400,
xp 16 8 [1,1,2,4] 64864800,
xp 16 8 [1,1,1,5] 21621600,
xp 16 8 [3,3,4] 43459416000,
xp 16 8 [2,4,4] 46659412800,
xp 16 8 [2,3,5] 98075577600,
xp 16 8 [1,4,5] 114594480000,
xp 16 8 [2,2,6] 57210753600,
xp 16 8 [1,3,6] 124540416000,
xp 16 8 [1,2,7] 148583635200,
xp 16 8 [1,1,8] 97513416000,
xm 16 8 [6,6] 29651516294400,
xm 16 8 [5,7] 60574382668800,
xm 16 8 [4,8] 64998680947200,
xm 16 8 [3,9] 74766281990400,
xm 16 8 [2,10] 95176899417600,
xm 16 8 [1,11] 138689764012800,
xp 16 8 [14] 90600257075328000,
xm 17 8 [2,2,2,3] 21621600,
xm 17 8 [1,2,3,3] 64864800,
xm 17 8 [1,2,2,4] 64864800,
xm 17 8 [1,1,3,4] 64864800,
xm 17 8 [1,1,2,5] 64864800,
xm 17 8 [1,1,1,6] 21621600,
xm 17 8 [3,4,4] 61189128000,
xm 17 8 [3,3,5] 64216152000,
xm 17 8 [2,4,5] 136994457600,
xm 17 8 [1,5,5] 82378296000,
xm 17 8 [2,3,6] 148670121600,
xm 17 8 [1,4,6] 170378208000,
xm 17 8 [2,2,7] 88086398400,
xm 17 8 [1,3,7] 189318729600,
xm 17 8 [1,2,8] 227805177600,
xm 17 8 [1,1,9] 148107960000,
xp 17 8 [6,7] 110607456960000,
xp 17 8 [5,8] 114879193228800,
xp 17 8 [4,9] 125173496448000,
xp 17 8 [3,10] 145921929753600,
xp 17 8 [2,11] 186997434624000,
xp 17 8 [1,12] 270107405568000,
xm 17 8 [15] 211400599842432000,
xp 18 8 [2,2,3,3] 32432400,
xp 18 8 [1,3,3,3] 21621600,
xp 18 8 [2,2,2,4] 21621600,
xp 18 8 [1,2,3,4] 129729600,
xp 18 8 [1,1,4,4] 32432400,
xp 18 8 [1,2,2,5] 64864800,
xp 18 8 [1,1,3,5] 64864800,
xp 18 8 [1,1,2,6] 64864800,
xp 18 8 [1,1,1,7] 21621600,
xp 18 8 [4,4,4] 27459432000,
xp 18 8 [3,4,5] 172540368000,
xp 18 8 [2,5,5] 95740444800,
xp 18 8 [3,3,6] 93405312000,
xp 18 8 [2,4,6] 197967369600,
xp 18 8 [1,5,6] 233513280000,
xp 18 8 [2,3,7] 219502483200,
xp 18 8 [1,4,7] 247264617600,
xp 18 8 [2,2,8] 131156625600,
xp 18 8 [1,3,8] 278918640000,
xp 18 8 [1,2,9] 336778041600,
xp 18 8 [1,1,10] 216648432000,
xm 18 8 [7,7] 97615712113920,
xm 18 8 [6,8] 198374201625600,
xm 18 8 [5,9] 208900980288000,
xm 18 8 [4,10] 230568418080000,
xm 18 8 [3,11] 271625760806400,
xm 18 8 [2,12] 349373540355840,
xm 18 8 [1,13] 499698700300800,
xp 9 9 [1,1,1] 86486400,
xm 9 9 [2,3] 31135104000,
xm 9 9 [1,4] 36324288000,
xp 9 9 [7] 5342783846400,
xm 10 9 [1,1,2] 1816214400,
xp 10 9 [3,3] 155675520000,
xp 10 9 [2,4] 326918592000,
xp 10 9 [1,5] 424994169600,
xm 10 9 [8] 80141757696000,
xp 11 9 [1,2,2] 6486480000,
xp 11 9 [1,1,3] 8043235200,
xm 11 9 [3,4] 1774700928000,
xm 11 9 [2,5] 1950614265600,
xm 11 9 [1,6] 2713424313600,
xp 11 9 [9] 641134061568000,
xm 12 9 [1,1,1,1] 21621600,
xm 12 9 [2,2,2] 5448643200,
xm 12 9 [1,2,3] 39956716800,
xm 12 9 [1,1,4] 27243216000,
xp 12 9 [4,4] 3632428800000,
xp 12 9 [3,5] 7508230329600,
xp 12 9 [2,6] 8597958969600,
xp 12 9 [1,7] 12466495641600,
xm 12 9 [10] 3633093015552000,
xp 13 9 [1,1,1,2] 129729600,
xp 13 9 [2,2,3] 40216176000,
xp 13 9 [1,3,3] 48259411200,
xp 13 9 [1,2,4] 107416108800,
xp 13 9 [1,1,5] 76540464000,
xm 13 9 [4,5] 24616969977600,
xm 13 9 [3,6] 26142590073600,
xm 13 9 [2,7] 30991882521600,
xm 13 9 [1,8] 46030137753600,
xp 13 9 [11] 16348918569984000,
xm 14 9 [1,1,2,2] 259459200,
xm 14 9 [1,1,1,3] 194594400,
xm 14 9 [2,3,3] 83545862400,
xm 14 9 [2,2,4] 92626934400,
xm 14 9 [1,3,4] 217945728000,
xm 14 9 [1,2,5] 257902444800,
xm 14 9 [1,1,6] 187070083200,
xp 14 9 [5,5] 35514256377600,
xp 14 9 [4,6] 72674003001600,
xp 14 9 [3,7] 79048915545600,
xp 14 9 [2,8] 96375600921600,
xp 14 9 [1,9] 144923011833600,
xm 14 9 [12] 62125890565939200,
xp 15 9 [1,2,2,2] 216216000,
xp 15 9 [1,1,2,3] 713512800,
xp 15 9 [1,1,1,4] 281080800,
xp 15 9 [3,3,3] 51113462400,
xp 15 9 [2,3,4] 338334796800,
xp 15 9 [1,4,4] 215351136000,
xp 15 9 [2,2,5] 199005206400,
xp 15 9 [1,3,5] 459242784000,
xp 15 9 [1,2,6] 564064300800,
xp 15 9 [1,1,7] 410464454400,
xm 15 9 [5,6] 185123101363200,
xm 15 9 [4,7] 192961882713600,
xm 15 9 [3,8] 214393212633600,
xm 15 9 [2,9] 267190565241600,
xm 15 9 [1,10] 403602796396800,
xp 15 9 [13] 207086301886464000,
xm 16 9 [2,2,2,2] 64864800,
xm 16 9 [1,2,2,3] 843242400,
xm 16 9 [1,1,3,3] 454053600,
xm 16 9 [1,1,2,4] 972972000,
xm 16 9 [1,1,1,5] 389188800,
xm 16 9 [3,3,4] 281513232000,
xm 16 9 [2,4,4] 308756448000,
xm 16 9 [2,3,5] 657469612800,
xm 16 9 [1,4,5] 817296480000,
xm 16 9 [2,2,6] 400864464000,
xm 16 9 [1,3,6] 908626118400,
xm 16 9 [1,2,7] 1141620480000,
xm 16 9 [1,1,8] 826637011200,
xp 16 9 [6,6] 218479695033600,
xp 16 9 [5,7] 444315058387200,
xp 16 9 [4,8] 470697388761600,
xp 16 9 [3,9] 532788569913600,
xp 16 9 [2,10] 675194308588800,
xp 16 9 [1,11] 1019136018700800,
xm 16 9 [14] 621258905659392000,
xp 17 9 [2,2,2,3] 324324000,
xp 17 9 [1,2,3,3] 1037836800,
xp 17 9 [1,2,2,4] 1102701600,
xp 17 9 [1,1,3,4] 1167566400,
xp 17 9 [1,1,2,5] 1297296000,
xp 17 9 [1,1,1,6] 518918400,
xp 17 9 [3,4,4] 476107632000,
xp 17 9 [3,3,5] 505945440000,
xp 17 9 [2,4,5] 1102701600000,
xp 17 9 [1,5,5] 712215504000,
xp 17 9 [2,3,6] 1223090668800,
xp 17 9 [1,4,6] 1486701216000,
xp 17 9 [2,2,7] 762291129600,
xp 17 9 [1,3,7] 1700495596800,
xp 17 9 [1,2,8] 2164927564800,
xp 17 9 [1,1,9] 1552863312000,
xm 17 9 [6,7] 966404049811200,
xm 17 9 [5,8] 996153641683200,
xm 17 9 [4,9] 1070756464377600,
xm 17 9 [3,10] 1231563049516800,
xm 17 9 [2,11] 1580128322572800,
xm 17 9 [1,12] 2374867419724800,
xp 17 9 [15] 1708461990563328000,
xm 18 9 [2,2,3,3] 583783200,
xm 18 9 [1,3,3,3] 410810400,
xm 18 9 [2,2,2,4] 410810400,
xm 18 9 [1,2,3,4] 2594592000,
xm 18 9 [1,1,4,4] 713512800,
xm 18 9 [1,2,2,5] 1427025600,
xm 18 9 [1,1,3,5] 1491890400,
xm 18 9 [1,1,2,6] 1686484800,
xm 18 9 [1,1,1,7] 670269600,
xm 18 9 [4,4,4] 251242992000,
xm 18 9 [3,4,5] 1598268672000,
xm 18 9 [2,5,5] 917188272000,
xm 18 9 [3,3,6] 883718035200,
xm 18 9 [2,4,6] 1913252140800,
xm 18 9 [1,5,6] 2415565152000,
xm 18 9 [2,3,7] 2182051872000,
xm 18 9 [1,4,7] 2598224428800,
xm 18 9 [2,2,8] 1377728352000,
xm 18 9 [1,3,8] 3031002374400,
xm 18 9 [1,2,9] 3885142060800,
xm 18 9 [1,1,10] 2754159408000,
xp 18 9 [7,7] 998126050521600,
xp 18 9 [6,8] 2021697264787200,
xp 18 9 [5,9] 2108821069555200,
xp 18 9 [4,10] 2296637876332800,
xp 18 9 [3,11] 2677625171020800,
xp 18 9 [2,12] 3465685788364800,
xp 18 9 [1,13] 5174634565900800,
xp 10 10 [1,1,2] 562161600,
xm 10 10 [3,3] 63938160000,
xm 10 10 [2,4] 133362028800,
xm 10 10 [1,5] 166572806400,
xp 10 10 [8] 33392399040000,
xm 11 10 [1,2,2] 4514590080,
xm 11 10 [1,1,3] 5924318400,
xp 11 10 [3,4] 1561944384000,
xp 11 10 [2,5] 1699976678400,
xp 11 10 [1,6] 2311781472000,
xm 11 10 [9] 567670783680000,
xp 12 10 [1,1,1,1] 32432400,
xp 12 10 [2,2,2] 6201074880,
xp 12 10 [1,2,3] 47481033600,
xp 12 10 [1,1,4] 34767532800,
xm 12 10 [4,4] 5133400272000,
xm 12 10 [3,5] 10581265094400]
def extD4_1 : PL := [
xm 12 10 [2,6] 11977674508800,
xm 12 10 [1,7] 17227053043200,
xp 12 10 [10] 5109037053120000,
xm 13 10 [1,1,1,2] 302702400,
xm 13 10 [2,2,3] 67433446080,
xm 13 10 [1,3,3] 84064780800,
xm 13 10 [1,2,4] 192345753600,
xm 13 10 [1,1,5] 147718771200,
xp 13 10 [4,5] 49401031680000,
xp 13 10 [3,6] 52221353184000,
xp 13 10 [2,7] 61219398240000,
xp 13 10 [1,8] 91272557376000,
xm 13 10 [11] 32357234669760000,
xp 14 10 [1,1,2,2] 843242400,
xp 14 10 [1,1,1,3] 670269600,
xp 14 10 [2,3,3] 189405216000,
xp 14 10 [2,2,4] 214936001280,
xp 14 10 [1,3,4] 524540016000,
xp 14 10 [1,2,5] 645275030400,
xp 14 10 [1,1,6] 505210305600,
xm 14 10 [5,5] 94635148608000,
xm 14 10 [4,6] 193348476921600,
xm 14 10 [3,7] 209073780115200,
xm 14 10 [2,8] 252566406892800,
xm 14 10 [1,9] 384903052934400,
xp 14 10 [12] 161786173348800000,
xm 15 10 [1,2,2,2] 908107200,
xm 15 10 [1,1,2,3] 3178375200,
xm 15 10 [1,1,1,4] 1362160800,
xm 15 10 [3,3,3] 148410662400,
xm 15 10 [2,3,4] 1002290889600,
xm 15 10 [1,4,4] 674334460800,
xm 15 10 [2,2,5] 611130199680,
xm 15 10 [1,3,5] 1461793132800,
xm 15 10 [1,2,6] 1874333260800,
xm 15 10 [1,1,7] 1473857985600,
xp 15 10 [5,6] 626290400736000,
xp 15 10 [4,7] 651024127353600,
xp 15 10 [3,8] 718621551648000,
xp 15 10 [2,9] 890018742412800,
xp 15 10 [1,10] 1372872832531200,
xm 15 10 [13] 679501928064960000,
xp 16 10 [2,2,2,2] 335134800,
xp 16 10 [1,2,2,3] 4605400800,
xp 16 10 [1,1,3,3] 2627024400,
xp 16 10 [1,1,2,4] 5772967200,
xp 16 10 [1,1,1,5] 2551348800,
xp 16 10 [3,3,4] 1025771947200,
xp 16 10 [2,4,4] 1145685340800,
xp 16 10 [2,3,5] 2475759686400,
xp 16 10 [1,4,5] 3243672432000,
xp 16 10 [2,2,6] 1574891398080,
xp 16 10 [1,3,6] 3697293600000,
xp 16 10 [1,2,7] 4857889196160,
xp 16 10 [1,1,8] 3804061060800,
xm 16 10 [6,6] 910195846560000,
xm 16 10 [5,7] 1849115383315200,
xm 16 10 [4,8] 1951802069817600,
xm 16 10 [3,9] 2194942323974400,
xm 16 10 [2,10] 2773795280256000,
xm 16 10 [1,11] 4300940996352000,
xp 16 10 [14] 2491507069571520000,
xm 17 10 [2,2,2,3] 2097295200,
xm 17 10 [1,2,3,3] 7070263200,
xm 17 10 [1,2,2,4] 7718911200,
xm 17 10 [1,1,3,4] 8627018400,
xm 17 10 [1,1,2,5] 9989179200,
xm 17 10 [1,1,1,6] 4454049600,
xm 17 10 [3,4,4] 2110008700800,
xm 17 10 [3,3,5] 2271695025600,
xm 17 10 [2,4,5] 5037400368000,
xm 17 10 [1,5,5] 3465337075200,
xm 17 10 [2,3,6] 5720037523200,
xm 17 10 [1,4,6] 7312684579200,
xm 17 10 [2,2,7] 3731464376640,
xm 17 10 [1,3,7] 8611364361600,
xm 17 10 [1,2,8] 11477177712000,
xm 17 10 [1,1,9] 8906066769600,
xp 17 10 [6,7] 4841119483200000,
xp 17 10 [5,8] 4980986154144000,
xp 17 10 [4,9] 5331224939040000,
xp 17 10 [3,10] 6095830148179200,
xp 17 10 [2,11] 7826955718982400,
xp 17 10 [1,12] 12140585826969600,
xm 17 10 [15] 8186380371449280000,
xp 18 10 [2,2,3,3] 4572968400,
xp 18 10 [1,3,3,3] 3372969600,
xp 18 10 [2,2,2,4] 3308104800,
xp 18 10 [1,2,3,4] 21924302400,
xp 18 10 [1,1,4,4] 6518912400,
xp 18 10 [1,2,2,5] 12583771200,
xp 18 10 [1,1,3,5] 13816202400,
xp 18 10 [1,1,2,6] 16475659200,
xp 18 10 [1,1,1,7] 7329722400,
xp 18 10 [4,4,4] 1322593272000,
xp 18 10 [3,4,5] 8512856352000,
xp 18 10 [2,5,5] 5026632811200,
xp 18 10 [3,3,6] 4810243838400,
xp 18 10 [2,4,6] 10591902921600,
xp 18 10 [1,5,6] 14193715536000,
xp 18 10 [2,3,7] 12428043788160,
xp 18 10 [1,4,7] 15535897977600,
xp 18 10 [2,2,8] 8227425286080,
xp 18 10 [1,3,8] 18695851574400,
xp 18 10 [1,2,9] 25112018131200,
xp 18 10 [1,1,10] 19256283446400,
xm 18 10 [7,7] 5906329228800000,
xm 18 10 [6,8] 11954401018560000,
xm 18 10 [5,9] 12438544101984000,
xm 18 10 [4,10] 13484193218496000,
xm 18 10 [3,11] 15645452030208000,
xm 18 10 [2,12] 20335971015360000,
xm 18 10 [1,13] 31448961415872000,
xp 11 11 [1,2,2] 1141620480,
xp 11 11 [1,1,3] 1599998400,
xm 11 11 [3,4] 508540032000,
xm 11 11 [2,5] 555761606400,
xm 11 11 [1,6] 736345209600,
xp 11 11 [9] 189223594560000,
xm 12 11 [1,1,1,1] 21621600,
xm 12 11 [2,2,2] 3424861440,
xm 12 11 [1,2,3] 27502675200,
xm 12 11 [1,1,4] 21491870400,
xp 12 11 [4,4] 3559780224000,
xp 12 11 [3,5] 7355668320000,
xp 12 11 [2,6] 8322413299200,
xp 12 11 [1,7] 11798647660800,
xm 12 11 [10] 3595248296640000,
xp 13 11 [1,1,1,2] 345945600,
xp 13 11 [2,2,3] 61984802880,
xp 13 11 [1,3,3] 80172892800,
xp 13 11 [1,2,4] 188021433600,
xp 13 11 [1,1,5] 153772819200,
xm 13 11 [4,5] 54613567008000,
xm 13 11 [3,6] 57869261049600,
xm 13 11 [2,7] 67623889132800,
xm 13 11 [1,8] 100399813113600,
xp 13 11 [11] 35952482966400000,
xm 14 11 [1,1,2,2] 1427025600,
xm 14 11 [1,1,1,3] 1167566400,
xm 14 11 [2,3,3] 250637587200,
xm 14 11 [2,2,4] 291242952000,
xm 14 11 [1,3,4] 734010076800,
xm 14 11 [1,2,5] 933534201600,
xm 14 11 [1,1,6] 777339763200,
xp 14 11 [5,5] 147603744288000,
xp 14 11 [4,6] 301971589920000,
xp 14 11 [3,7] 326971521676800,
xp 14 11 [2,8] 393362460691200,
xp 14 11 [1,9] 602176262688000,
xm 14 11 [12] 251667380764800000,
xp 15 11 [1,2,2,2] 2075673600,
xp 15 11 [1,1,2,3] 7524316800,
xp 15 11 [1,1,1,4] 3372969600,
xp 15 11 [3,3,3] 261275414400,
xp 15 11 [2,3,4] 1801425225600,
xp 15 11 [1,4,4] 1275155481600,
xp 15 11 [2,2,5] 1135912377600,
xp 15 11 [1,3,5] 2801380982400,
xp 15 11 [1,2,6] 3723239520000,
xp 15 11 [1,1,7] 3112991481600,
xm 15 11 [5,6] 1289133413568000,
xm 15 11 [4,7] 1342312171200000,
xm 15 11 [3,8] 1481903296473600,
xm 15 11 [2,9] 1828567771430400,
xm 15 11 [1,10] 2853937037952000,
xp 15 11 [13] 1384170594206400000,
xm 16 11 [2,2,2,2] 972972000,
xm 16 11 [1,2,2,3] 13881067200,
xm 16 11 [1,1,3,3] 8237829600,
xm 16 11 [1,1,2,4] 18291873600,
xm 16 11 [1,1,1,5] 8562153600,
xm 16 11 [3,3,4] 2326570646400,
xm 16 11 [2,4,4] 2645359516800,
xm 16 11 [2,3,5] 5795799609600,
xm 16 11 [1,4,5] 7960467715200,
xm 16 11 [2,2,6] 3827126983680,
xm 16 11 [1,3,6] 9259061011200,
xm 16 11 [1,2,7] 12616151708160,
xm 16 11 [1,1,8] 10508616518400,
xp 16 11 [6,6] 2365681007289600,
xp 16 11 [5,7] 4810244357318400,
xp 16 11 [4,8] 5084720536896000,
xp 16 11 [3,9] 5713439475744000,
xp 16 11 [2,10] 7203185704915200,
xp 16 11 [1,11] 11368553561164800,
xm 16 11 [14] 6367184733349440000,
xp 17 11 [2,2,2,3] 7697289600,
xp 17 11 [1,2,3,3] 26983756800,
xp 17 11 [1,2,2,4] 29837808000,
xp 17 11 [1,1,3,4] 34767532800,
xp 17 11 [1,1,2,5] 40994553600,
xp 17 11 [1,1,1,6] 19545926400,
xp 17 11 [3,4,4] 5927691369600,
xp 17 11 [3,3,5] 6465982723200,
xp 17 11 [2,4,5] 14567596243200,
xp 17 11 [1,5,5] 10613956953600,
xp 17 11 [2,3,6] 16893647971200,
xp 17 11 [1,4,6] 22587653088000,
xp 17 11 [2,2,7] 11454500977920,
xp 17 11 [1,3,7] 27232924118400,
xp 17 11 [1,2,8] 37639227225600,
xp 17 11 [1,1,9] 31086325670400,
xm 17 11 [6,7] 15415838421984000,
xm 17 11 [5,8] 15881261524128000,
xm 17 11 [4,9] 17013598553952000,
xm 17 11 [3,10] 19426584681504000,
xm 17 11 [2,11] 24932100819225600,
xm 17 11 [1,12] 39555300206822400,
xp 17 11 [15] 25468738933397760000,
xm 18 11 [2,2,3,3] 20562141600,
xm 18 11 [1,3,3,3] 15762146400,
xm 18 11 [2,2,2,4] 15091876800,
xm 18 11 [1,2,3,4] 104043139200,
xm 18 11 [1,1,4,4] 32756724000,
xm 18 11 [1,2,2,5] 60972912000,
xm 18 11 [1,1,3,5] 69794524800,
xm 18 11 [1,1,2,6] 85362076800,
xm 18 11 [1,1,1,7] 40886445600,
xm 18 11 [4,4,4] 4472644176000,
xm 18 11 [3,4,5] 29132338435200,
xm 18 11 [2,5,5] 17664501254400,
xm 18 11 [3,3,6] 16805172384000,
xm 18 11 [2,4,6] 37553865148800,
xm 18 11 [1,5,6] 53131536057600,
xm 18 11 [2,3,7] 45163751592960,
xm 18 11 [1,4,7] 58951897804800,
xm 18 11 [2,2,8] 31087467290880,
xm 18 11 [1,3,8] 72740165097600,
xm 18 11 [1,2,9] 101324525702400,
xm 18 11 [1,1,10] 82738944288000,
xp 18 11 [7,7] 22512881443852800,
xp 18 11 [6,8] 45594854988883200,
xp 18 11 [5,9] 47501971957440000,
xp 18 11 [4,10] 51512227839072000,
xp 18 11 [3,11] 59676224172364800,
xp 18 11 [2,12] 77702776870118400,
xp 18 11 [1,13] 123388921540684800,
xp 12 12 [1,1,1,1] 5405400,
xp 12 12 [2,2,2] 726485760,
xp 12 12 [1,2,3] 6227020800,
xp 12 12 [1,1,4] 5145940800,
xm 12 12 [4,4] 970463894400,
xm 12 12 [3,5] 2015997984000,
xm 12 12 [2,6] 2294657164800,
xm 12 12 [1,7] 3190829241600,
xp 12 12 [10] 1006669523059200,
xm 13 12 [1,1,1,2] 194594400,
xm 13 12 [2,2,3] 29578348800,
xm 13 12 [1,3,3] 39938184000,
xm 13 12 [1,2,4] 95221526400,
xm 13 12 [1,1,5] 82118836800,
xp 13 12 [4,5] 31580335987200,
xp 13 12 [3,6] 33649263648000,
xp 13 12 [2,7] 39403030867200,
xp 13 12 [1,8] 57880158336000,
xm 13 12 [11] 21140059984243200,
xp 14 12 [1,1,2,2] 1329728400,
xp 14 12 [1,1,1,3] 1102701600,
xp 14 12 [2,3,3] 194056948800,
xp 14 12 [2,2,4] 230529499200,
xp 14 12 [1,3,4] 600129129600,
xp 14 12 [1,2,5] 782269488000,
xp 14 12 [1,1,6] 685361476800,
xm 14 12 [5,5] 135055518998400,
xm 14 12 [4,6] 276993452736000,
xm 14 12 [3,7] 301353558105600,
xm 14 12 [2,8] 362418837580800,
xm 14 12 [1,9] 553200744096000,
xp 14 12 [12] 232540659826675200,
xm 15 12 [1,2,2,2] 2789186400,
xm 15 12 [1,1,2,3] 10313503200,
xm 15 12 [1,1,1,4] 4735130400,
xm 15 12 [3,3,3] 286424424000,
xm 15 12 [2,3,4] 2017814198400,
xm 15 12 [1,4,4] 1499457960000,
xm 15 12 [2,2,5] 1310398689600,
xm 15 12 [1,3,5] 3323153433600,
xm 15 12 [1,2,6] 4541833296000,
xm 15 12 [1,1,7] 3991390603200,
xp 15 12 [5,6] 1656659964960000,
xp 15 12 [4,7] 1731010593312000,
xp 15 12 [3,8] 1917836784864000,
xp 15 12 [2,9] 2363068772064000,
xp 15 12 [1,10] 3702475000224000,
xm 15 12 [13] 1782811725337843200,
xp 16 12 [2,2,2,2] 1735133400,
xp 16 12 [1,2,2,3] 25362136800,
xp 16 12 [1,1,3,3] 15437822400,
xp 16 12 [1,1,2,4] 34443208800,
xp 16 12 [1,1,1,5] 16670253600,
xp 16 12 [3,3,4] 3417837508800,
xp 16 12 [2,4,4] 3959996040000,
xp 16 12 [2,3,5] 8774910144000,
xp 16 12 [1,4,5] 12594927945600,
xp 16 12 [2,2,6] 5981442667200,
xp 16 12 [1,3,6] 14856114873600,
xp 16 12 [1,2,7] 20837946729600,
xp 16 12 [1,1,8] 18241668244800,
xm 16 12 [6,6] 3988597524912000,
xm 16 12 [5,7] 8123133066048000,
xm 16 12 [4,8] 8617636355328000,
xm 16 12 [3,9] 9706057320960000,
xm 16 12 [2,10] 12218278808736000,
xm 16 12 [1,11] 19471107880224000,
xp 16 12 [14] 10696870352027059200,
xm 17 12 [2,2,2,3] 17708090400,
xm 17 12 [1,2,3,3] 63826963200,
xm 17 12 [1,2,2,4] 71026956000,
xm 17 12 [1,1,3,4] 85232347200,
xm 17 12 [1,1,2,5] 101383682400,
xm 17 12 [1,1,1,6] 50399949600,
xm 17 12 [3,4,4] 11075664600000,
xm 17 12 [3,3,5] 12230369236800,
xm 17 12 [2,4,5] 28003171996800,
xm 17 12 [1,5,5] 21504756873600,
xm 17 12 [2,3,6] 33032788588800,
xm 17 12 [1,4,6] 46013272905600,
xm 17 12 [2,2,7] 23132837407680,
xm 17 12 [1,3,7] 56433932755200,
xm 17 12 [1,2,8] 80304438614400,
xm 17 12 [1,1,9] 69734459995200,
xp 17 12 [6,7] 32689309234982400,
xp 17 12 [5,8] 33758773592544000,
xp 17 12 [4,9] 36284403412857600,
xp 17 12 [3,10] 41486716567296000,
xp 17 12 [2,11] 53198321374598400,
xp 17 12 [1,12] 85638814425964800,
xm 17 12 [15] 53484351760135296000,
xp 18 12 [2,2,3,3] 58897238400,
xp 18 12 [1,3,3,3] 46508061600,
xp 18 12 [2,2,2,4] 43567524000,
xp 18 12 [1,2,3,4] 309534825600,
xp 18 12 [1,1,4,4] 101448547200,
xp 18 12 [1,2,2,5] 183372789600,
xp 18 12 [1,1,3,5] 216713296800,
xp 18 12 [1,1,2,6] 268475407200,
xp 18 12 [1,1,1,7] 135005270400,
xp 18 12 [4,4,4] 10247557320000,
xp 18 12 [3,4,5] 67545791913600,
xp 18 12 [2,5,5] 42032130940800,
xp 18 12 [3,3,6] 39692828260800,
xp 18 12 [2,4,6] 89968255977600,
xp 18 12 [1,5,6] 133792212153600,
xp 18 12 [2,3,7] 110375500435200,
xp 18 12 [1,4,7] 149799461011200,
xp 18 12 [2,2,8] 78463186401600,
xp 18 12 [1,3,8] 188356481913600,
xp 18 12 [1,2,9] 270110259619200,
xp 18 12 [1,1,10] 232058621995200,
xm 18 12 [7,7] 58210603237987200,
xm 18 12 [6,8] 118025776893024000,
xm 18 12 [5,9] 123305149429862400,
xm 18 12 [4,10] 134081390329286400,
xm 18 12 [3,11] 155431599811488000,
xm 18 12 [2,12] 202442754875961600,
xm 18 12 [1,13] 327527119823904000,
xp 13 13 [1,1,1,2] 43243200,
xp 13 13 [2,2,3] 5708102400,
xp 13 13 [1,3,3] 8154432000,
xp 13 13 [1,2,4] 19545926400,
xp 13 13 [1,1,5] 17643225600,
xm 13 13 [4,5] 7475538470400,
xm 13 13 [3,6] 8014175769600,
xm 13 13 [2,7] 9438918128640,
xm 13 13 [1,8] 13653780940800,
xp 13 13 [11] 5124863026483200,
xm 14 13 [1,1,2,2] 648648000,
xm 14 13 [1,1,1,3] 540540000,
xm 14 13 [2,3,3] 81544320000,
xm 14 13 [2,2,4] 98594496000,
xm 14 13 [1,3,4] 266378112000,
xm 14 13 [1,2,5] 352605052800,
xm 14 13 [1,1,6] 322507785600,
xp 14 13 [5,5] 67279846233600,
xp 14 13 [4,6] 138330153561600,
xp 14 13 [3,7] 151378875648000,
xp 14 13 [2,8] 182545114752000,
xp 14 13 [1,9] 276266448057600,
xm 14 13 [12] 117871849609113600,
xp 15 13 [1,2,2,2] 2205403200,
xp 15 13 [1,1,2,3] 8237829600,
xp 15 13 [1,1,1,4] 3827023200,
xp 15 13 [3,3,3] 191629152000,
xp 15 13 [2,3,4] 1378247270400,
xp 15 13 [1,4,4] 1074161088000,
xp 15 13 [2,2,5] 917188272000,
xp 15 13 [1,3,5] 2392473283200,
xp 15 13 [1,2,6] 3336904771200,
xp 15 13 [1,1,7] 3056688835200,
xm 15 13 [5,6] 1300874461286400,
xm 15 13 [4,7] 1364259306009600,
xm 15 13 [3,8] 1519131540326400,
xm 15 13 [2,9] 1873165175481600,
xm 15 13 [1,10] 2927919753158400,
xp 15 13 [13] 1414462195309363200,
xm 16 13 [2,2,2,2] 1945944000,
xm 16 13 [1,2,2,3] 28864836000,
xm 16 13 [1,1,3,3] 17837820000,
xm 16 13 [1,1,2,4] 39891852000]
def extD4_2 : PL := [
xm 16 13 [1,1,1,5] 19675656000,
xm 16 13 [3,3,4] 3262514112000,
xm 16 13 [2,4,4] 3853833984000,
xm 16 13 [2,3,5] 8612488684800,
xm 16 13 [1,4,5] 12892960080000,
xm 16 13 [2,2,6] 6029312889600,
xm 16 13 [1,3,6] 15343379251200,
xm 16 13 [1,2,7] 22010442854400,
xm 16 13 [1,1,8] 20072542089600,
xp 16 13 [6,6] 4373582307494400,
xp 16 13 [5,7] 8921455813670400,
xp 16 13 [4,8] 9503328356121600,
xp 16 13 [3,9] 10746638680377600,
xp 16 13 [2,10] 13524441048518400,
xp 16 13 [1,11] 21619426423795200,
xm 16 13 [14] 11787184960911360000,
xp 17 13 [2,2,2,3] 26529703200,
xp 17 13 [1,2,3,3] 97426929600,
xp 17 13 [1,2,2,4] 108778269600,
xp 17 13 [1,1,3,4] 133102569600,
xp 17 13 [1,1,2,5] 159048489600,
xp 17 13 [1,1,1,6] 81124243200,
xp 17 13 [3,4,4] 13989175200000,
xp 17 13 [3,3,5] 15612809097600,
xp 17 13 [2,4,5] 36352309593600,
xp 17 13 [1,5,5] 29289051792000,
xp 17 13 [2,3,6] 43444107907200,
xp 17 13 [1,4,6] 62873018208000,
xp 17 13 [2,2,7] 31260422793600,
xp 17 13 [1,3,7] 78021197654400,
xp 17 13 [1,2,8] 113636902579200,
xp 17 13 [1,1,9] 102811486377600,
xm 17 13 [6,7] 46865632701888000,
xm 17 13 [5,8] 48522786158246400,
xm 17 13 [4,9] 52363511398598400,
xm 17 13 [3,10] 60051183710918400,
xm 17 13 [2,11] 76963543360704000,
xm 17 13 [1,12] 124874957503296000,
xp 17 13 [15] 76616702245923840000,
xm 18 13 [2,2,3,3] 112540428000,
xm 18 13 [1,3,3,3] 90810720000,
xm 18 13 [2,2,2,4] 83610727200,
xm 18 13 [1,2,3,4] 607134528000,
xm 18 13 [1,1,4,4] 204518714400,
xm 18 13 [1,2,2,5] 361815854400,
xm 18 13 [1,1,3,5] 437513076000,
xm 18 13 [1,1,2,6] 545772427200,
xm 18 13 [1,1,1,7] 283329446400,
xm 18 13 [4,4,4] 16299226944000,
xm 18 13 [3,4,5] 108645945408000,
xm 18 13 [2,5,5] 69345141465600,
xm 18 13 [3,3,6] 64865578377600,
xm 18 13 [2,4,6] 149159202192000,
xm 18 13 [1,5,6] 232148784067200,
xm 18 13 [2,3,7] 185858668195200,
xm 18 13 [1,4,7] 261411111561600,
xm 18 13 [2,2,8] 135735821020800,
xm 18 13 [1,3,8] 333213331651200,
xm 18 13 [1,2,9] 489198645936000,
xm 18 13 [1,1,10] 438108275404800,
xp 18 13 [7,7] 104476617477872640,
xp 18 13 [6,8] 212074989308582400,
xp 18 13 [5,9] 222238065848198400,
xp 18 13 [4,10] 242555782352083200,
xp 18 13 [3,11] 281779162112448000,
xp 18 13 [2,12] 366935834819473920,
xp 18 13 [1,13] 600813927012499200,
xp 14 14 [1,1,2,2] 129729600,
xp 14 14 [1,1,1,3] 108108000,
xp 14 14 [2,3,3] 14362920000,
xp 14 14 [2,2,4] 17539441920,
xp 14 14 [1,3,4] 49643193600,
xp 14 14 [1,2,5] 66162096000,
xp 14 14 [1,1,6] 62789126400,
xm 14 14 [5,5] 14105051251200,
xm 14 14 [4,6] 29052165542400,
xm 14 14 [3,7] 31975751808000,
xm 14 14 [2,8] 38755420704000,
xm 14 14 [1,9] 57913888032000,
xp 14 14 [12] 25258253487667200,
xm 15 14 [1,2,2,2] 951350400,
xm 15 14 [1,1,2,3] 3567564000,
xm 15 14 [1,1,1,4] 1664863200,
xm 15 14 [3,3,3] 71814600000,
xm 15 14 [2,3,4] 525404880000,
xm 15 14 [1,4,4] 429433804800,
xm 15 14 [2,2,5] 356341265280,
xm 15 14 [1,3,5] 959220662400,
xm 15 14 [1,2,6] 1355674320000,
xm 15 14 [1,1,7] 1286225740800,
xp 15 14 [5,6] 571780617408000,
xp 15 14 [4,7] 601508414707200,
xp 15 14 [3,8] 673413380640000,
xp 15 14 [2,9] 832583816064000,
xp 15 14 [1,10] 1292110448428800,
xm 15 14 [13] 631456337191680000,
xp 16 14 [2,2,2,2] 1340539200,
xp 16 14 [1,2,2,3] 20043223200,
xp 16 14 [1,1,3,3] 12486474000,
xp 16 14 [1,1,2,4] 27956728800,
xp 16 14 [1,1,1,5] 13924310400,
xp 16 14 [3,3,4] 1957193409600,
xp 16 14 [2,4,4] 2354404852800,
xp 16 14 [2,3,5] 5294264976000,
xp 16 14 [1,4,5] 8256078230400,
xp 16 14 [2,2,6] 3788882697600,
xp 16 14 [1,3,6] 9879946876800,
xp 16 14 [1,2,7] 14409153158400,
xp 16 14 [1,1,8] 13598126942400,
xm 16 14 [6,6] 3014058650803200,
xm 16 14 [5,7] 6156291184243200,
xm 16 14 [4,8] 6582532314758400,
xm 16 14 [3,9] 7478784304992000,
xm 16 14 [2,10] 9422417561356800,
xm 16 14 [1,11] 15030316818316800,
xp 16 14 [14] 8208932383491840000,
xm 17 14 [2,2,2,3] 25924298400,
xm 17 14 [1,2,3,3] 96324228000,
xm 17 14 [1,2,2,4] 107740432800,
xm 17 14 [1,1,3,4] 133426893600,
xm 17 14 [1,1,2,5] 159826867200,
xm 17 14 [1,1,1,6] 82767484800,
xm 17 14 [3,4,4] 11829422404800,
xm 17 14 [3,3,5] 13317911006400,
xm 17 14 [2,4,5] 31531298198400,
xm 17 14 [1,5,5] 26547605884800,
xm 17 14 [2,3,6] 38056178160000,
xm 17 14 [1,4,6] 57106191542400,
xm 17 14 [2,2,7] 28015366579200,
xm 17 14 [1,3,7] 71421679929600,
xm 17 14 [1,2,8] 105928110288000,
xm 17 14 [1,1,9] 99156873816000,
xp 17 14 [6,7] 44955621725414400,
xp 17 14 [5,8] 46648068378912000,
xp 17 14 [4,9] 50540138000352000,
xp 17 14 [3,10] 58185337879468800,
xp 17 14 [2,11] 74591596932652800,
xp 17 14 [1,12] 121318930097164800,
xm 17 14 [15] 73880391451426560000,
xp 18 14 [2,2,3,3] 145589043600,
xp 18 14 [1,3,3,3] 119243124000,
xp 18 14 [2,2,2,4] 108432324000,
xp 18 14 [1,2,3,4] 799264065600,
xp 18 14 [1,1,4,4] 274151077200,
xp 18 14 [1,2,2,5] 477923846400,
xp 18 14 [1,1,3,5] 586961575200,
xp 18 14 [1,1,2,6] 735047913600,
xp 18 14 [1,1,1,7] 389448259200,
xp 18 14 [4,4,4] 18060075633600,
xp 18 14 [3,4,5] 121579208150400,
xp 18 14 [2,5,5] 79501931308800,
xp 18 14 [3,3,6] 73553310230400,
xp 18 14 [2,4,6] 171620066217600,
xp 18 14 [1,5,6] 278418662121600,
xp 18 14 [2,3,7] 216438788966400,
xp 18 14 [1,4,7] 314680247481600,
xp 18 14 [2,2,8] 161711968017600,
xp 18 14 [1,3,8] 404987011228800,
xp 18 14 [1,2,9] 605886529248000,
xp 18 14 [1,1,10] 561579762744000,
xm 18 14 [7,7] 130473406218355200,
xm 18 14 [6,8] 265100749039526400,
xm 18 14 [5,9] 278573640215270400,
xm 18 14 [4,10] 305218595710828800,
xm 18 14 [3,11] 355664324292076800,
xm 18 14 [2,12] 463139885573164800,
xm 18 14 [1,13] 763223276732716800,
xp 15 15 [1,2,2,2] 172972800,
xp 15 15 [1,1,2,3] 648648000,
xp 15 15 [1,1,1,4] 302702400,
xp 15 15 [3,3,3] 11583000000,
xp 15 15 [2,3,4] 85621536000,
xp 15 15 [1,4,4] 73455782400,
xp 15 15 [2,2,5] 58845346560,
xp 15 15 [1,3,5] 164497132800,
xp 15 15 [1,2,6] 234032198400,
xp 15 15 [1,1,7] 228799771200,
xm 15 15 [5,6] 107883135360000,
xm 15 15 [4,7] 113756772729600,
xm 15 15 [3,8] 128004196320000,
xm 15 15 [2,9] 158947819430400,
xm 15 15 [1,10] 244041096499200,
xp 15 15 [13] 121433910998400000,
xm 16 15 [2,2,2,2] 518918400,
xm 16 15 [1,2,2,3] 7783776000,
xm 16 15 [1,1,3,3] 4864860000,
xm 16 15 [1,1,2,4] 10897286400,
xm 16 15 [1,1,1,5] 5448643200,
xm 16 15 [3,3,4] 671350680000,
xm 16 15 [2,4,4] 819718099200,
xm 16 15 [2,3,5] 1852538688000,
xm 16 15 [1,4,5] 3007651046400,
xm 16 15 [2,2,6] 1349395407360,
xm 16 15 [1,3,6] 3613228819200,
xm 16 15 [1,2,7] 5327942780160,
xm 16 15 [1,1,8] 5175821851200,
xp 16 15 [6,6] 1186714488960000,
xp 16 15 [5,7] 2426291714246400,
xp 16 15 [4,8] 2602380965184000,
xp 16 15 [3,9] 2970810434592000,
xp 16 15 [2,10] 3752131858675200,
xp 16 15 [1,11] 5948501727168000,
xm 16 15 [14] 3278715596956800000,
xp 17 15 [2,2,2,3] 15956740800,
xp 17 15 [1,2,3,3] 59675616000,
xp 17 15 [1,2,2,4] 66810744000,
xp 17 15 [1,1,3,4] 83286403200,
xp 17 15 [1,1,2,5] 99891792000,
xp 17 15 [1,1,1,6] 52151299200,
xp 17 15 [3,4,4] 6424512494400,
xp 17 15 [3,3,5] 7284057580800,
xp 17 15 [2,4,5] 17511939244800,
xp 17 15 [1,5,5] 15361541395200,
xp 17 15 [2,3,6] 21302638156800,
xp 17 15 [1,4,6] 33096615552000,
xp 17 15 [2,2,7] 15982972125120,
xp 17 15 [1,3,7] 41614920547200,
xp 17 15 [1,2,8] 62555094201600,
xp 17 15 [1,1,9] 60254728934400,
xm 17 15 [6,7] 27666630063072000,
xm 17 15 [5,8] 28758647133216000,
xm 17 15 [4,9] 31267529381088000,
xm 17 15 [3,10] 36148931461843200,
xm 17 15 [2,11] 46398313471910400,
xm 17 15 [1,12] 75317183407065600,
xp 17 15 [15] 45902018357395200000,
xm 18 15 [2,2,3,3] 126162036000,
xm 18 15 [1,3,3,3] 104324220000,
xm 18 15 [2,2,2,4] 94097203200,
xm 18 15 [1,2,3,4] 700280380800,
xm 18 15 [1,1,4,4] 242918676000,
xm 18 15 [1,2,2,5] 419545526400,
xm 18 15 [1,1,3,5] 520345425600,
xm 18 15 [1,1,2,6] 653058806400,
xm 18 15 [1,1,1,7] 350334784800,
xm 18 15 [4,4,4] 13697788104000,
xm 18 15 [3,4,5] 92982912422400,
xm 18 15 [2,5,5] 62169018912000,
xm 18 15 [3,3,6] 56877607987200,
xm 18 15 [2,4,6] 134594460000000,
xm 18 15 [1,5,6] 226805221843200,
xm 18 15 [2,3,7] 171376641596160,
xm 18 15 [1,4,7] 257040607824000,
xm 18 15 [2,2,8] 130530887847360,
xm 18 15 [1,3,8] 333033526425600,
xm 18 15 [1,2,9] 505635126796800,
xm 18 15 [1,1,10] 482309917689600,
xp 18 15 [7,7] 111333597639264000,
xp 18 15 [6,8] 226383769291680000,
xp 18 15 [5,9] 238437312265152000,
xp 18 15 [4,10] 262187639217504000,
xp 18 15 [3,11] 306609311552544000,
xp 18 15 [2,12] 399464769832128000,
xp 18 15 [1,13] 659521063289088000,
xp 16 16 [2,2,2,2] 86486400,
xp 16 16 [1,2,2,3] 1297296000,
xp 16 16 [1,1,3,3] 810810000,
xp 16 16 [1,1,2,4] 1816214400,
xp 16 16 [1,1,1,5] 908107200,
xp 16 16 [3,3,4] 100540440000,
xp 16 16 [2,4,4] 123906182400,
xp 16 16 [2,3,5] 281513232000,
xp 16 16 [1,4,5] 475848172800,
xp 16 16 [2,2,6] 207774927360,
xp 16 16 [1,3,6] 573664291200,
xp 16 16 [1,2,7] 850887797760,
xp 16 16 [1,1,8] 847177531200,
xm 16 16 [6,6] 203697585907200,
xm 16 16 [5,7] 416788512940800,
xm 16 16 [4,8] 448114578912000,
xm 16 16 [3,9] 513814837536000,
xm 16 16 [2,10] 651334959475200,
xm 16 16 [1,11] 1023095366092800,
xp 16 16 [14] 572474151849600000,
xm 17 16 [2,2,2,3] 5621616000,
xm 17 16 [1,2,3,3] 21081060000,
xm 17 16 [1,2,2,4] 23610787200,
xm 17 16 [1,1,3,4] 29513484000,
xm 17 16 [1,1,2,5] 35416180800,
xm 17 16 [1,1,1,6] 18551332800,
xm 17 16 [3,4,4] 2027097072000,
xm 17 16 [3,3,5] 2312430120000,
xm 17 16 [2,4,5] 5628448425600,
xm 17 16 [1,5,5] 5135593881600,
xm 17 16 [2,3,6] 6895387699200,
xm 17 16 [1,4,6] 11080724054400,
xm 17 16 [2,2,7] 5253737448960,
xm 17 16 [1,3,7] 13988829254400,
xm 17 16 [1,2,8] 21219351753600,
xm 17 16 [1,1,9] 20938833115200,
xp 17 16 [6,7] 9880810875936000,
xp 17 16 [5,8] 10284858904320000,
xp 17 16 [4,9] 11214651704256000,
xp 17 16 [3,10] 13019156710560000,
xp 17 16 [2,11] 16747320247257600,
xp 17 16 [1,12] 27039284182310400,
xm 17 16 [15] 16601750403638400000,
xp 18 16 [2,2,3,3] 70216146000,
xp 18 16 [1,3,3,3] 58378320000,
xp 18 16 [2,2,2,4] 52410758400,
xp 18 16 [1,2,3,4] 392172580800,
xp 18 16 [1,1,4,4] 136897160400,
xp 18 16 [1,2,2,5] 235199764800,
xp 18 16 [1,1,3,5] 293318625600,
xp 18 16 [1,1,2,6] 368561793600,
xp 18 16 [1,1,1,7] 199070071200,
xp 18 16 [4,4,4] 6785074296000,
xp 18 16 [3,4,5] 46380667132800,
xp 18 16 [2,5,5] 31619632262400,
xp 18 16 [3,3,6] 28643906491200,
xp 18 16 [2,4,6] 68642007033600,
xp 18 16 [1,5,6] 119826561254400,
xp 18 16 [2,3,7] 88108919458560,
xp 18 16 [1,4,7] 136109701728000,
xp 18 16 [2,2,8] 68195036669760,
xp 18 16 [1,3,8] 177202330905600,
xp 18 16 [1,2,9] 272006387452800,
xp 18 16 [1,1,10] 265801809873600,
xm 18 16 [7,7] 61932933872409600,
xm 18 16 [6,8] 126008221321382400,
xm 18 16 [5,9] 132962967577440000,
xm 18 16 [4,10] 146668928357952000,
xm 18 16 [3,11] 172153562073292800,
xm 18 16 [2,12] 224560046661350400,
xm 18 16 [1,13] 370076590096012800,
xp 17 17 [2,2,2,3] 864864000,
xp 17 17 [1,2,3,3] 3243240000,
xp 17 17 [1,2,2,4] 3632428800,
xp 17 17 [1,1,3,4] 4540536000,
xp 17 17 [1,1,2,5] 5448643200,
xp 17 17 [1,1,1,6] 2854051200,
xp 17 17 [3,4,4] 282522240000,
xp 17 17 [3,3,5] 324324000000,
xp 17 17 [2,4,5] 795501907200,
xp 17 17 [1,5,5] 754884748800,
xp 17 17 [2,3,6] 981793612800,
xp 17 17 [1,4,6] 1630960531200,
xp 17 17 [2,2,7] 756894378240,
xp 17 17 [1,3,7] 2066506041600,
xp 17 17 [1,2,8] 3150353606400,
xp 17 17 [1,1,9] 3172840070400,
xm 17 17 [6,7] 1557421491225600,
xm 17 17 [5,8] 1622870593344000,
xm 17 17 [4,9] 1773655826342400,
xm 17 17 [3,10] 2066878674432000,
xm 17 17 [2,11] 2667020554598400,
xm 17 17 [1,12] 4271389631308800,
xp 17 17 [15] 2656280064582144000,
xm 18 17 [2,2,3,3] 22702680000,
xm 18 17 [1,3,3,3] 18918900000,
xm 18 17 [2,2,2,4] 16951334400,
xm 18 17 [1,2,3,4] 127135008000,
xm 18 17 [1,1,4,4] 44497252800,
xm 18 17 [1,2,2,5] 76281004800,
xm 18 17 [1,1,3,5] 95351256000,
xm 18 17 [1,1,2,6] 119870150400,
xm 18 17 [1,1,1,7] 64929664800,
xm 18 17 [4,4,4] 1977655680000,
xm 18 17 [3,4,5] 13603445856000,
xm 18 17 [2,5,5] 9424171411200,
xm 18 17 [3,3,6] 8476532064000,
xm 18 17 [2,4,6] 20515957862400,
xm 18 17 [1,5,6] 37039876473600,
xm 18 17 [2,3,7] 26531778873600,
xm 18 17 [1,4,7] 42160995676800,
xm 18 17 [2,2,8] 20804476492800,
xm 18 17 [1,3,8] 55097458416000,
xm 18 17 [1,2,9] 85207958035200,
xm 18 17 [1,1,10] 84978596102400,
xp 18 17 [7,7] 20246479385932800,
xp 18 17 [6,8] 41212898895168000,
xp 18 17 [5,9] 43551702523929600,
xp 18 17 [4,10] 48167611421529600,
xp 18 17 [3,11] 56739554936064000,
xp 18 17 [2,12] 74155641649689600,
xp 18 17 [1,13] 121626663238080000,
xp 18 18 [2,2,3,3] 3243240000,
xp 18 18 [1,3,3,3] 2702700000,
xp 18 18 [2,2,2,4] 2421619200,
xp 18 18 [1,2,3,4] 18162144000,
xp 18 18 [1,1,4,4] 6356750400,
xp 18 18 [1,2,2,5] 10897286400,
xp 18 18 [1,1,3,5] 13621608000,
xp 18 18 [1,1,2,6] 17124307200,
xp 18 18 [1,1,1,7] 9275666400,
xp 18 18 [4,4,4] 257095238400,
xp 18 18 [3,4,5] 1779890112000,
xp 18 18 [2,5,5] 1248234624000,
xp 18 18 [3,3,6] 1119195792000,
xp 18 18 [2,4,6] 2725359436800,
xp 18 18 [1,5,6] 5085919238400,
xp 18 18 [2,3,7] 3551736988800,
xp 18 18 [1,4,7] 5800383388800,
xp 18 18 [2,2,8] 2813056646400,
xp 18 18 [1,3,8] 7606046448000,
xp 18 18 [1,2,9] 11812139539200,
xp 18 18 [1,1,10] 11984160988800,
xm 18 18 [7,7] 2951019872760960,
xm 18 18 [6,8] 6009296131238400,
xm 18 18 [5,9] 6357912777216000]
def extD4_3 : PL := [
xm 18 18 [4,10] 7046686661414400,
xm 18 18 [3,11] 8327902418035200,
xm 18 18 [2,12] 10912860801722880,
xm 18 18 [1,13] 17771756498496000]
/-- row 4 -/
def extD4 : PL := extD4_0 ++ extD4_1 ++ extD4_2 ++ extD4_3
def extD5_0 : PL := [
xm 9 9 [1,1,1] 43243200,
xp 9 9 [2,3] 7783776000,
xp 9 9 [1,4] 10897286400,
xm 9 9 [7] 1335695961600,
xp 10 9 [1,1,2] 908107200,
xm 10 9 [3,3] 38918880000,
xm 10 9 [2,4] 87178291200,
xm 10 9 [1,5] 130767436800,
xp 10 9 [8] 20035439424000,
xm 11 9 [1,2,2] 3243240000,
xm 11 9 [1,1,3] 4021617600,
xp 11 9 [3,4] 454572518400,
xp 11 9 [2,5] 544864320000,
xp 11 9 [1,6] 849988339200,
xm 11 9 [9] 160283515392000,
xm 12 9 [1,1,1,1] 21621600,
xp 12 9 [2,2,2] 2724321600,
xp 12 9 [1,2,3] 19978358400,
xp 12 9 [1,1,4] 13621608000,
xm 12 9 [4,4] 926269344000,
xm 12 9 [3,5] 1983306124800,
xm 12 9 [2,6] 2484581299200,
xm 12 9 [1,7] 3955714963200,
xp 12 9 [10] 908273253888000,
xp 13 9 [1,1,1,2] 129729600,
xm 13 9 [2,2,3] 20108088000,
xm 13 9 [1,3,3] 24129705600,
xm 13 9 [1,2,4] 53708054400,
xm 13 9 [1,1,5] 38270232000,
xp 13 9 [4,5] 6353117971200,
xp 13 9 [3,6] 7115928019200,
xp 13 9 [2,7] 9186412435200,
xp 13 9 [1,8] 14744028499200,
xm 13 9 [11] 4087229642496000,
xm 14 9 [1,1,2,2] 259459200,
xm 14 9 [1,1,1,3] 194594400,
xp 14 9 [2,3,3] 41772931200,
xp 14 9 [2,2,4] 46313467200,
xp 14 9 [1,3,4] 108972864000,
xp 14 9 [1,2,5] 128951222400,
xp 14 9 [1,1,6] 93535041600,
xm 14 9 [5,5] 9131926003200,
xm 14 9 [4,6] 19113840345600,
xm 14 9 [3,7] 22099696819200,
xm 14 9 [2,8] 29128446547200,
xm 14 9 [1,9] 46749358656000,
xp 14 9 [12] 15531472641484800,
xp 15 9 [1,2,2,2] 216216000,
xp 15 9 [1,1,2,3] 713512800,
xp 15 9 [1,1,1,4] 281080800,
xm 15 9 [3,3,3] 25556731200,
xm 15 9 [2,3,4] 169167398400,
xm 15 9 [1,4,4] 107675568000,
xm 15 9 [2,2,5] 99502603200,
xm 15 9 [1,3,5] 229621392000,
xm 15 9 [1,2,6] 282032150400,
xm 15 9 [1,1,7] 205232227200,
xp 15 9 [5,6] 47948060160000,
xp 15 9 [4,7] 51827494118400,
xp 15 9 [3,8] 61329927859200,
xp 15 9 [2,9] 81991182873600,
xp 15 9 [1,10] 130898204236800,
xm 15 9 [13] 51771575471616000,
xm 16 9 [2,2,2,2] 64864800,
xm 16 9 [1,2,2,3] 843242400,
xm 16 9 [1,1,3,3] 454053600,
xm 16 9 [1,1,2,4] 972972000,
xm 16 9 [1,1,1,5] 389188800,
xp 16 9 [3,3,4] 140756616000,
xp 16 9 [2,4,4] 154378224000,
xp 16 9 [2,3,5] 328734806400,
xp 16 9 [1,4,5] 408648240000,
xp 16 9 [2,2,6] 200432232000,
xp 16 9 [1,3,6] 454313059200,
xp 16 9 [1,2,7] 570810240000,
xp 16 9 [1,1,8] 413318505600,
xm 16 9 [6,6] 56426148979200,
xm 16 9 [5,7] 116579169907200,
xm 16 9 [4,8] 129067460121600,
xm 16 9 [3,9] 155403087840000,
xm 16 9 [2,10] 209704265971200,
xm 16 9 [1,11] 331920446457600,
xp 16 9 [14] 155314726414848000,
xp 17 9 [2,2,2,3] 324324000,
xp 17 9 [1,2,3,3] 1037836800,
xp 17 9 [1,2,2,4] 1102701600,
xp 17 9 [1,1,3,4] 1167566400,
xp 17 9 [1,1,2,5] 1297296000,
xp 17 9 [1,1,1,6] 518918400,
xm 17 9 [3,4,4] 238053816000,
xm 17 9 [3,3,5] 252972720000,
xm 17 9 [2,4,5] 551350800000,
xm 17 9 [1,5,5] 356107752000,
xm 17 9 [2,3,6] 611545334400,
xm 17 9 [1,4,6] 743350608000,
xm 17 9 [2,2,7] 381145564800,
xm 17 9 [1,3,7] 850247798400,
xm 17 9 [1,2,8] 1082463782400,
xm 17 9 [1,1,9] 776431656000,
xp 17 9 [6,7] 250811943782400,
xp 17 9 [5,8] 265457896704000,
xp 17 9 [4,9] 299326662835200,
xp 17 9 [3,10] 365158726732800,
xp 17 9 [2,11] 495543201753600,
xp 17 9 [1,12] 776039353689600,
xm 17 9 [15] 427115497640832000,
xm 18 9 [2,2,3,3] 583783200,
xm 18 9 [1,3,3,3] 410810400,
xm 18 9 [2,2,2,4] 410810400,
xm 18 9 [1,2,3,4] 2594592000,
xm 18 9 [1,1,4,4] 713512800,
xm 18 9 [1,2,2,5] 1427025600,
xm 18 9 [1,1,3,5] 1491890400,
xm 18 9 [1,1,2,6] 1686484800,
xm 18 9 [1,1,1,7] 670269600,
xp 18 9 [4,4,4] 125621496000,
xp 18 9 [3,4,5] 799134336000,
xp 18 9 [2,5,5] 458594136000,
xp 18 9 [3,3,6] 441859017600,
xp 18 9 [2,4,6] 956626070400,
xp 18 9 [1,5,6] 1207782576000,
xp 18 9 [2,3,7] 1091025936000,
xp 18 9 [1,4,7] 1299112214400,
xp 18 9 [2,2,8] 688864176000,
xp 18 9 [1,3,8] 1515501187200,
xp 18 9 [1,2,9] 1942571030400,
xp 18 9 [1,1,10] 1377079704000,
xm 18 9 [7,7] 258461838835200,
xm 18 9 [6,8] 529673502758400,
xm 18 9 [5,9] 571192163942400,
xm 18 9 [4,10] 653343692601600,
xm 18 9 [3,11] 804979432857600,
xm 18 9 [2,12] 1095493304505600,
xm 18 9 [1,13] 1695443407257600,
xm 10 10 [1,1,2] 856215360,
xp 10 10 [3,3] 38362896000,
xp 10 10 [2,4] 88735046400,
xp 10 10 [1,5] 126097171200,
xm 10 10 [8] 20035439424000,
xp 11 10 [1,2,2] 6771885120,
xp 11 10 [1,1,3] 7913505600,
xm 11 10 [3,4] 980755776000,
xm 11 10 [2,5] 1176906931200,
xm 11 10 [1,6] 1746679334400,
xp 11 10 [9] 340602470208000,
xp 12 10 [1,1,1,1] 54054000,
xm 12 10 [2,2,2] 9340531200,
xm 12 10 [1,2,3] 66836689920,
xm 12 10 [1,1,4] 42810768000,
xp 12 10 [4,4] 3210807600000,
xp 12 10 [3,5] 6897982291200,
xp 12 10 [2,6] 8513894188800,
xp 12 10 [1,7] 12997349164800,
xm 12 10 [10] 3065422231872000,
xm 13 10 [1,1,1,2] 497296800,
xp 13 10 [2,2,3] 98231253120,
xp 13 10 [1,3,3] 117664747200,
xp 13 10 [1,2,4] 254010556800,
xp 13 10 [1,1,5] 172540368000,
xm 13 10 [4,5] 31384184832000,
xm 13 10 [3,6] 35092375718400,
xm 13 10 [2,7] 44283458419200,
xm 13 10 [1,8] 68788342022400,
xp 13 10 [11] 19414340801856000,
xp 14 10 [1,1,2,2] 1383782400,
xp 14 10 [1,1,1,3] 1081080000,
xm 14 10 [2,3,3] 274845130560,
xm 14 10 [2,2,4] 298455917760,
xm 14 10 [1,3,4] 711956044800,
xm 14 10 [1,2,5] 808474867200,
xm 14 10 [1,1,6] 569383214400,
xp 14 10 [5,5] 59919507648000,
xp 14 10 [4,6] 125452674547200,
xp 14 10 [3,7] 143928245260800,
xp 14 10 [2,8] 184839771916800,
xp 14 10 [1,9] 289846023667200,
xm 14 10 [12] 97071704009280000,
xm 15 10 [1,1,1,1,1] 540540,
xm 15 10 [1,2,2,2] 1491890400,
xm 15 10 [1,1,2,3] 5167562400,
xm 15 10 [1,1,1,4] 2162160000,
xp 15 10 [3,3,3] 216778161600,
xp 15 10 [2,3,4] 1417685068800,
xp 15 10 [1,4,4] 913426113600,
xp 15 10 [2,2,5] 808812164160,
xp 15 10 [1,3,5] 1911954844800,
xp 15 10 [1,2,6] 2253558827520,
xp 15 10 [1,1,7] 1619881623360,
xm 15 10 [5,6] 399933524390400,
xm 15 10 [4,7] 431485838784000,
xm 15 10 [3,8] 504173852582400,
xm 15 10 [2,9] 656494565126400,
xm 15 10 [1,10] 1033160826297600,
xp 15 10 [13] 407701156838976000,
xp 16 10 [1,1,1,1,2] 2702700,
xp 16 10 [2,2,2,2] 551350800,
xp 16 10 [1,2,2,3] 7524316800,
xp 16 10 [1,1,3,3] 4270266000,
xp 16 10 [1,1,2,4] 9275666400,
xp 16 10 [1,1,1,5] 3999996000,
xm 16 10 [3,3,4] 1477360684800,
xm 16 10 [2,4,4] 1612668657600,
xm 16 10 [2,3,5] 3383607427200,
xm 16 10 [1,4,5] 4317401088000,
xm 16 10 [2,2,6] 1997472597120,
xm 16 10 [1,3,6] 4667671008000,
xm 16 10 [1,2,7] 5656781370240,
xm 16 10 [1,1,8] 4105552651200,
xp 16 10 [6,6] 579692047334400,
xp 16 10 [5,7] 1197259948684800,
xp 16 10 [4,8] 1318985751283200,
xp 16 10 [3,9] 1562867020915200,
xp 16 10 [2,10] 2056971780864000,
xp 16 10 [1,11] 3235055618995200,
xm 16 10 [14] 1494904241742912000,
xm 17 10 [1,1,1,2,2] 5405400,
xm 17 10 [1,1,1,1,3] 2702700,
xm 17 10 [2,2,2,3] 3437834400,
xm 17 10 [1,2,3,3] 11545934400,
xm 17 10 [1,2,2,4] 12497284800,
xm 17 10 [1,1,3,4] 13945932000,
xm 17 10 [1,1,2,5] 15870254400,
xm 17 10 [1,1,1,6] 6918912000,
xp 17 10 [3,4,4] 3034505073600,
xp 17 10 [3,3,5] 3189791404800,
xp 17 10 [2,4,5] 6961290336000,
xp 17 10 [1,5,5] 4610460254400,
xp 17 10 [2,3,6] 7544191374720,
xp 17 10 [1,4,6] 9504249955200,
xp 17 10 [2,2,7] 4565963001600,
xp 17 10 [1,3,7] 10537312705920,
xp 17 10 [1,2,8] 13034866965120,
xp 17 10 [1,1,9] 9482585112000,
xm 17 10 [6,7] 3100103624217600,
xm 17 10 [5,8] 3275789675558400,
xm 17 10 [4,9] 3664430497728000,
xm 17 10 [3,10] 4390528032633600,
xm 17 10 [2,11] 5825637936518400,
xm 17 10 [1,12] 9128146201574400,
xp 17 10 [15] 4911828222869568000,
xp 18 10 [1,1,2,2,2] 5405400,
xp 18 10 [1,1,1,2,3] 10810800,
xp 18 10 [1,1,1,1,4] 2702700,
xp 18 10 [2,2,3,3] 7491884400,
xp 18 10 [1,3,3,3] 5513508000,
xp 18 10 [2,2,2,4] 5383778400,
xp 18 10 [1,2,3,4] 35632396800,
xp 18 10 [1,1,4,4] 10540530000,
xp 18 10 [1,2,2,5] 20172952800,
xp 18 10 [1,1,3,5] 22162140000,
xp 18 10 [1,1,2,6] 25924298400,
xp 18 10 [1,1,1,7] 11308096800,
xm 18 10 [4,4,4] 1910917008000,
xm 18 10 [3,4,5] 12068744688000,
xm 18 10 [2,5,5] 6918998486400,
xm 18 10 [3,3,6] 6554717769600,
xm 18 10 [2,4,6] 14279077612800,
xm 18 10 [1,5,6] 18676132675200,
xm 18 10 [2,3,7] 15854825226240,
xm 18 10 [1,4,7] 19691396524800,
xm 18 10 [2,2,8] 9773464821120,
xm 18 10 [1,3,8] 22275350697600,
xm 18 10 [1,2,9] 27963993657600,
xm 18 10 [1,1,10] 20292304032000,
xp 18 10 [7,7] 3774307836499200,
xp 18 10 [6,8] 7731148333708800,
xp 18 10 [5,9] 8308309097088000,
xp 18 10 [4,10] 9403813298880000,
xp 18 10 [3,11] 11369444025139200,
xp 18 10 [2,12] 15174841819737600,
xp 18 10 [1,13] 23637811432435200,
xm 11 11 [1,2,2] 3554591040,
xm 11 11 [1,1,3] 3935131200,
xp 11 11 [3,4] 544864320000,
xp 11 11 [2,5] 653837184000,
xp 11 11 [1,6] 924712588800,
xm 11 11 [9] 189223594560000,
xm 12 11 [1,1,1,1] 43243200,
xp 12 11 [2,2,2] 10663773120,
xp 12 11 [1,2,3] 74724249600,
xp 12 11 [1,1,4] 45708062400,
xm 12 11 [4,4] 3814050240000,
xm 12 11 [3,5] 8172964800000,
xm 12 11 [2,6] 9966346790400,
xm 12 11 [1,7] 14692655577600,
xp 12 11 [10] 3595248296640000,
xp 13 11 [1,1,1,2] 691891200,
xm 13 11 [2,2,3] 178949010240,
xm 13 11 [1,3,3] 213924110400,
xm 13 11 [1,2,4] 453534681600,
xm 13 11 [1,1,5] 298161864000,
xp 13 11 [4,5] 59390210880000,
xp 13 11 [3,6] 66028215052800,
xp 13 11 [2,7] 81888437030400,
xp 13 11 [1,8] 124219724428800,
xm 13 11 [11] 35952482966400000,
xm 14 11 [1,1,2,2] 2854051200,
xm 14 11 [1,1,1,3] 2335132800,
xp 14 11 [2,3,3] 714939825600,
xp 14 11 [2,2,4] 766831665600,
xp 14 11 [1,3,4] 1847954908800,
xp 14 11 [1,2,5] 2048689843200,
xp 14 11 [1,1,6] 1417555339200,
xm 14 11 [5,5] 160190110080000,
xm 14 11 [4,6] 334531124928000,
xm 14 11 [3,7] 380467857369600,
xm 14 11 [2,8] 479514850214400,
xm 14 11 [1,9] 741311258688000,
xp 14 11 [12] 251667380764800000,
xp 15 11 [1,1,1,1,1] 2702700,
xp 15 11 [1,2,2,2] 4151347200,
xp 15 11 [1,1,2,3] 15048633600,
xp 15 11 [1,1,1,4] 6745939200,
xm 15 11 [3,3,3] 752691139200,
xm 15 11 [2,3,4] 4888989705600,
xm 15 11 [1,4,4] 3185077896000,
xm 15 11 [2,2,5] 2742224284800,
xm 15 11 [1,3,5] 6601939344000,
xm 15 11 [1,2,6] 7597224835200,
xm 15 11 [1,1,7] 5441378342400,
xp 15 11 [5,6] 1409813076672000,
xp 15 11 [4,7] 1513922637427200,
xp 15 11 [3,8] 1749658963852800,
xp 15 11 [2,9] 2237290735680000,
xp 15 11 [1,10] 3499523419392000,
xm 15 11 [13] 1384170594206400000,
xm 16 11 [1,1,1,1,2] 18918900,
xm 16 11 [2,2,2,2] 1945944000,
xm 16 11 [1,2,2,3] 27762134400,
xm 16 11 [1,1,3,3] 16475659200,
xm 16 11 [1,1,2,4] 36583747200,
xm 16 11 [1,1,1,5] 17124307200,
xp 16 11 [3,3,4] 6516836726400,
xp 16 11 [2,4,4] 7098155064000,
xp 16 11 [2,3,5] 14775163603200,
xp 16 11 [1,4,5] 19252478044800,
xp 16 11 [2,2,6] 8571805482240,
xp 16 11 [1,3,6] 20508693004800,
xp 16 11 [1,2,7] 24346717274880,
xp 16 11 [1,1,8] 17820695692800,
xm 16 11 [6,6] 2582460725644800,
xm 16 11 [5,7] 5322804450163200,
xm 16 11 [4,8] 5826203038656000,
xm 16 11 [3,9] 6818727883968000,
xm 16 11 [2,10] 8828950306176000,
xm 16 11 [1,11] 13896580784486400,
xp 16 11 [14] 6367184733349440000,
xp 17 11 [1,1,1,2,2] 48648600,
xp 17 11 [1,1,1,1,3] 27027000,
xp 17 11 [2,2,2,3] 15394579200,
xp 17 11 [1,2,3,3] 53967513600,
xp 17 11 [1,2,2,4] 59675616000,
xp 17 11 [1,1,3,4] 69535065600,
xp 17 11 [1,1,2,5] 81989107200,
xp 17 11 [1,1,1,6] 39091852800,
xm 17 11 [3,4,4] 16533172656000,
xm 17 11 [3,3,5] 17279982720000,
xm 17 11 [2,4,5] 37773108172800,
xm 17 11 [1,5,5] 25580471716800,
xm 17 11 [2,3,6] 40439051452800,
xm 17 11 [1,4,6] 52405050297600,
xm 17 11 [2,2,7] 24101891573760,
xm 17 11 [1,3,7] 57136894214400,
xm 17 11 [1,2,8] 69579173664000,
xm 17 11 [1,1,9] 51554153851200,
xp 17 11 [6,7] 16908743307456000,
xp 17 11 [5,8] 17801884900800000,
xp 17 11 [4,9] 19757511918144000,
xp 17 11 [3,10] 23368000848192000,
xp 17 11 [2,11] 30576751952947200,
xp 17 11 [1,12] 48229309781452800,
xm 17 11 [15] 25468738933397760000,
xm 18 11 [1,1,2,2,2] 59459400,
xm 18 11 [1,1,1,2,3] 129729600,
xm 18 11 [1,1,1,1,4] 37837800,
xm 18 11 [2,2,3,3] 41124283200,
xm 18 11 [1,3,3,3] 31524292800,
xm 18 11 [2,2,2,4] 30183753600,
xm 18 11 [1,2,3,4] 208086278400,
xm 18 11 [1,1,4,4] 65513448000,
xm 18 11 [1,2,2,5] 121945824000,
xm 18 11 [1,1,3,5] 139589049600,
xm 18 11 [1,1,2,6] 170724153600,
xm 18 11 [1,1,1,7] 81772891200,
xp 18 11 [4,4,4] 12568636080000,
xp 18 11 [3,4,5] 79094580364800,
xp 18 11 [2,5,5] 45395370820800,
xp 18 11 [3,3,6] 42566357433600,
xp 18 11 [2,4,6] 93173614934400,
xp 18 11 [1,5,6] 125504047468800,
xp 18 11 [2,3,7] 102016347713280,
xp 18 11 [1,4,7] 131002333862400,
xp 18 11 [2,2,8] 62144422179840,
xp 18 11 [1,3,8] 145751205600000,
xp 18 11 [1,2,9] 181132359408000,
xp 18 11 [1,1,10] 134923843454400,
xm 18 11 [7,7] 24656125484390400,
xm 18 11 [6,8] 50423858246361600,
xm 18 11 [5,9] 53920504782144000,
xm 18 11 [4,10] 60486991621056000]
def extD5_1 : PL := [
xm 18 11 [3,11] 72193031028518400,
xm 18 11 [2,12] 95277864332851200,
xm 18 11 [1,13] 150137568867686400,
xp 12 12 [1,1,1,1] 10810800,
xm 12 12 [2,2,2] 4040150400,
xm 12 12 [1,2,3] 27799200000,
xm 12 12 [1,1,4] 16518902400,
xp 12 12 [4,4] 1531674144000,
xp 12 12 [3,5] 3253618368000,
xp 12 12 [2,6] 3938590656000,
xp 12 12 [1,7] 5639605171200,
xm 12 12 [10] 1438099318656000,
xm 13 12 [1,1,1,2] 410810400,
xp 13 12 [2,2,3] 143999856000,
xp 13 12 [1,3,3] 170965080000,
xp 13 12 [1,2,4] 360388828800,
xp 13 12 [1,1,5] 231956524800,
xm 13 12 [4,5] 50345463168000,
xm 13 12 [3,6] 55482755328000,
xm 13 12 [2,7] 68120494041600,
xm 13 12 [1,8] 101290277088000,
xp 13 12 [11] 30200085691776000,
xp 14 12 [1,1,2,2] 2836753920,
xp 14 12 [1,1,1,3] 2443240800,
xm 14 12 [2,3,3] 918763560000,
xm 14 12 [2,2,4] 980941104000,
xm 14 12 [1,3,4] 2369159020800,
xm 14 12 [1,2,5] 2603673072000,
xm 14 12 [1,1,6] 1779371193600,
xp 14 12 [5,5] 215166919968000,
xp 14 12 [4,6] 447458147136000,
xp 14 12 [3,7] 504584835955200,
xp 14 12 [2,8] 628890181920000,
xp 14 12 [1,9] 960588012384000,
xm 14 12 [12] 332200942609536000,
xm 15 12 [1,1,1,1,1] 5405400,
xm 15 12 [1,2,2,2] 5954588640,
xm 15 12 [1,1,2,3] 22572950400,
xm 15 12 [1,1,1,4] 10854043200,
xp 15 12 [3,3,3] 1370963880000,
xp 15 12 [2,3,4] 8875839772800,
xp 15 12 [1,4,4] 5815994184000,
xp 15 12 [2,2,5] 4947368025600,
xp 15 12 [1,3,5] 12022820409600,
xp 15 12 [1,2,6] 13700224137600,
xp 15 12 [1,1,7] 9780833462400,
xm 15 12 [5,6] 2653925129856000,
xm 15 12 [4,7] 2833045383168000,
xm 15 12 [3,8] 3246854266656000,
xm 15 12 [2,9] 4106152001952000,
xm 15 12 [1,10] 6389450042976000,
xp 15 12 [13] 2546873893339776000,
xp 16 12 [1,1,1,1,2] 54054000,
xp 16 12 [2,2,2,2] 3690807120,
xp 16 12 [1,2,2,3] 54992377440,
xp 16 12 [1,1,3,3] 33967533600,
xp 16 12 [1,1,2,4] 77383706400,
xp 16 12 [1,1,1,5] 39091852800,
xm 16 12 [3,3,4] 15682510958400,
xm 16 12 [2,4,4] 17054308814400,
xm 16 12 [2,3,5] 35416736784000,
xm 16 12 [1,4,5] 46739239747200,
xm 16 12 [2,2,6] 20412952560000,
xm 16 12 [1,3,6] 49568642323200,
xm 16 12 [1,2,7] 58298147107200,
xm 16 12 [1,1,8] 42904951689600,
xp 16 12 [6,6] 6383684859552000,
xp 16 12 [5,7] 13121671635072000,
xp 16 12 [4,8] 14268914595936000,
xp 16 12 [3,9] 16561516843872000,
xp 16 12 [2,10] 21227548069728000,
xp 16 12 [1,11] 33435809158752000,
xm 16 12 [14] 15281243360038656000,
xm 17 12 [1,1,1,2,2] 183783600,
xm 17 12 [1,1,1,1,3] 108108000,
xm 17 12 [2,2,2,3] 38062664640,
xm 17 12 [1,2,3,3] 138940401600,
xm 17 12 [1,2,2,4] 157197680640,
xm 17 12 [1,1,3,4] 190118728800,
xm 17 12 [1,1,2,5] 232799767200,
xm 17 12 [1,1,1,6] 120021501600,
xp 17 12 [3,4,4] 50378544216000,
xp 17 12 [3,3,5] 52554220804800,
xp 17 12 [2,4,5] 114912663465600,
xp 17 12 [1,5,5] 79104180355200,
xp 17 12 [2,3,6] 122564115273600,
xp 17 12 [1,4,6] 161799794956800,
xp 17 12 [2,2,7] 72622630080000,
xp 17 12 [1,3,7] 175433078620800,
xp 17 12 [1,2,8] 212007485289600,
xp 17 12 [1,1,9] 159170435424000,
xm 17 12 [6,7] 52498091328883200,
xm 17 12 [5,8] 55035382802400000,
xm 17 12 [4,9] 60672875975712000,
xm 17 12 [3,10] 71175898553760000,
xm 17 12 [2,11] 92322191785824000,
xm 17 12 [1,12] 146470415605113600,
xp 17 12 [15] 76406216800193280000,
xp 18 12 [1,1,2,2,2] 281080800,
xp 18 12 [1,1,1,2,3] 648648000,
xp 18 12 [1,1,1,1,4] 205405200,
xp 18 12 [2,2,3,3] 126966359520,
xp 18 12 [1,3,3,3] 101189088000,
xp 18 12 [2,2,2,4] 95251796640,
xp 18 12 [1,2,3,4] 681729048000,
xp 18 12 [1,1,4,4] 226897070400,
xp 18 12 [1,2,2,5] 414019045440,
xp 18 12 [1,1,3,5] 491048157600,
xp 18 12 [1,1,2,6] 627026400000,
xp 18 12 [1,1,1,7] 324951026400,
xm 18 12 [4,4,4] 47043257976000,
xm 18 12 [3,4,5] 295635114403200,
xm 18 12 [2,5,5] 169800738307200,
xm 18 12 [3,3,6] 158642751009600,
xm 18 12 [2,4,6] 348008992531200,
xm 18 12 [1,5,6] 478905380553600,
xm 18 12 [2,3,7] 379304961235200,
xm 18 12 [1,4,7] 498532777142400,
xm 18 12 [2,2,8] 230041715904000,
xm 18 12 [1,3,8] 551306951395200,
xm 18 12 [1,2,9] 681624485942400,
xm 18 12 [1,1,10] 517879006444800,
xp 18 12 [7,7] 93404299590201600,
xp 18 12 [6,8] 190644997679136000,
xp 18 12 [5,9] 202838703107040000,
xp 18 12 [4,10] 226020905222112000,
xp 18 12 [3,11] 267636739065696000,
xp 18 12 [2,12] 350741070404524800,
xp 18 12 [1,13] 558342060468192000,
xp 13 13 [1,1,1,2] 86486400,
xm 13 13 [2,2,3] 43199956800,
xm 13 13 [1,3,3] 50594544000,
xm 13 13 [1,2,4] 107156649600,
xm 13 13 [1,1,5] 68108040000,
xp 13 13 [4,5] 16019011008000,
xp 13 13 [3,6] 17466793344000,
xp 13 13 [2,7] 21371135385600,
xp 13 13 [1,8] 31166239104000,
xm 13 13 [11] 9609118174656000,
xm 14 13 [1,1,2,2] 1349187840,
xm 14 13 [1,1,1,3] 1232431200,
xp 14 13 [2,3,3] 583783200000,
xp 14 13 [2,2,4] 623869646400,
xp 14 13 [1,3,4] 1498376880000,
xp 14 13 [1,2,5] 1650938889600,
xp 14 13 [1,1,6] 1117361044800,
xm 14 13 [5,5] 144171099072000,
xm 14 13 [4,6] 298476674496000,
xm 14 13 [3,7] 333923990400000,
xm 14 13 [2,8] 414065748096000,
xm 14 13 [1,9] 624437862048000,
xp 14 13 [12] 221009718017088000,
xp 15 13 [1,1,1,1,1] 5405400,
xp 15 13 [1,2,2,2] 4618373760,
xp 15 13 [1,1,2,3] 18378360000,
xp 15 13 [1,1,1,4] 9470260800,
xm 15 13 [3,3,3] 1383566184000,
xm 15 13 [2,3,4] 8949526185600,
xm 15 13 [1,4,4] 5866372512000,
xm 15 13 [2,2,5] 4993681492800,
xm 15 13 [1,3,5] 12150474336000,
xm 15 13 [1,2,6] 13846559126400,
xm 15 13 [1,1,7] 9837914486400,
xp 15 13 [5,6] 2795807798784000,
xp 15 13 [4,7] 2967299951616000,
xp 15 13 [3,8] 3379310782848000,
xp 15 13 [2,9] 4248626237856000,
xp 15 13 [1,10] 6566058731232000,
xm 15 13 [13] 2652116616205056000,
xm 16 13 [1,1,1,1,2] 81081000,
xm 16 13 [2,2,2,2] 4047563520,
xm 16 13 [1,2,2,3] 63087504480,
xm 16 13 [1,1,3,3] 40562121600,
xm 16 13 [1,1,2,4] 94810716000,
xm 16 13 [1,1,1,5] 51308056800,
xp 16 13 [3,3,4] 22264842600000,
xp 16 13 [2,4,4] 24182894736000,
xp 16 13 [2,3,5] 50280079449600,
xp 16 13 [1,4,5] 66718635984000,
xp 16 13 [2,2,6] 28998846676800,
xp 16 13 [1,3,6] 70903193961600,
xp 16 13 [1,2,7] 83249819452800,
xp 16 13 [1,1,8] 61330706236800,
xm 16 13 [6,6] 9396621089856000,
xm 16 13 [5,7] 19264331870784000,
xm 16 13 [4,8] 20827952361216000,
xm 16 13 [3,9] 24043640388768000,
xm 16 13 [2,10] 30635299959264000,
xm 16 13 [1,11] 48176327174976000,
xp 16 13 [14] 22100971801708800000,
xp 17 13 [1,1,1,2,2] 378378000,
xp 17 13 [1,1,1,1,3] 229729500,
xp 17 13 [2,2,2,3] 56769672960,
xp 17 13 [1,2,3,3] 215740324800,
xp 17 13 [1,2,2,4] 250084074240,
xp 17 13 [1,1,3,4] 313210497600,
xp 17 13 [1,1,2,5] 397253656800,
xp 17 13 [1,1,1,6] 219005186400,
xm 17 13 [3,4,4] 94074068088000,
xm 17 13 [3,3,5] 98180658576000,
xm 17 13 [2,4,5] 214527612499200,
xm 17 13 [1,5,5] 149265580464000,
xm 17 13 [2,3,6] 229165262726400,
xm 17 13 [1,4,6] 305668624060800,
xm 17 13 [2,2,7] 135826112822400,
xm 17 13 [1,3,7] 331867516780800,
xm 17 13 [1,2,8] 400100875574400,
xm 17 13 [1,1,9] 302479481304000,
xp 17 13 [6,7] 100888712084160000,
xp 17 13 [5,8] 105355073888064000,
xp 17 13 [4,9] 115527682958688000,
xp 17 13 [3,10] 134859655842912000,
xp 17 13 [2,11] 173972172838464000,
xp 17 13 [1,12] 276834118841280000,
xm 17 13 [15] 143656316711107200000,
xm 18 13 [1,1,2,2,2] 745945200,
xm 18 13 [1,1,1,2,3] 1783782000,
xm 18 13 [1,1,1,1,4] 591891300,
xm 18 13 [2,2,3,3] 243035432640,
xm 18 13 [1,3,3,3] 201210609600,
xm 18 13 [2,2,2,4] 186641975520,
xm 18 13 [1,2,3,4] 1384993209600,
xm 18 13 [1,1,4,4] 486096811200,
xm 18 13 [1,2,2,5] 871121291040,
xm 18 13 [1,1,3,5] 1066939473600,
xm 18 13 [1,1,2,6] 1415285071200,
xm 18 13 [1,1,1,7] 783242460000,
xp 18 13 [4,4,4] 110684646072000,
xp 18 13 [3,4,5] 695564709840000,
xp 18 13 [2,5,5] 399608940931200,
xp 18 13 [3,3,6] 373588556140800,
xp 18 13 [2,4,6] 819761601859200,
xp 18 13 [1,5,6] 1144548217612800,
xp 18 13 [2,3,7] 894662543174400,
xp 18 13 [1,4,7] 1193307347232000,
xp 18 13 [2,2,8] 542729230243200,
xp 18 13 [1,3,8] 1320164214969600,
xp 18 13 [1,2,9] 1628769917174400,
xp 18 13 [1,1,10] 1253049773976000,
xm 18 13 [7,7] 224824138764825600,
xm 18 13 [6,8] 458068196634048000,
xm 18 13 [5,9] 485259455929248000,
xm 18 13 [4,10] 538099588170144000,
xm 18 13 [3,11] 634239644246208000,
xm 18 13 [2,12] 827338538022796800,
xm 18 13 [1,13] 1326287096630496000,
xp 14 14 [1,1,2,2] 242161920,
xp 14 14 [1,1,1,3] 237837600,
xm 14 14 [2,3,3] 146872440000,
xm 14 14 [2,2,4] 157595518080,
xm 14 14 [1,3,4] 374140166400,
xm 14 14 [1,2,5] 416432016000,
xm 14 14 [1,1,6] 279697017600,
xp 14 14 [5,5] 38404018598400,
xp 14 14 [4,6] 79216007270400,
xp 14 14 [3,7] 87967047168000,
xp 14 14 [2,8] 108980647776000,
xp 14 14 [1,9] 162044205523200,
xm 14 14 [12] 58935924804556800,
xm 15 14 [1,1,1,1,1] 2702700,
xm 15 14 [1,2,2,2] 1816214400,
xm 15 14 [1,1,2,3] 7675668000,
xm 15 14 [1,1,1,4] 4237833600,
xp 15 14 [3,3,3] 734362200000,
xp 15 14 [2,3,4] 4754589840000,
xp 15 14 [1,4,4] 3104213112000,
xp 15 14 [2,2,5] 2667655710720,
xp 15 14 [1,3,5] 6457420569600,
xp 15 14 [1,2,6] 7406262864000,
xp 15 14 [1,1,7] 5231475849600,
xm 15 14 [5,6] 1557832474598400,
xm 15 14 [4,7] 1645577424691200,
xm 15 14 [3,8] 1864408946400000,
xm 15 14 [2,9] 2338803628761600,
xm 15 14 [1,10] 3582174666470400,
xp 15 14 [13] 1473398120113920000,
xp 16 14 [1,1,1,1,2] 67567500,
xp 16 14 [2,2,2,2] 2542700160,
xp 16 14 [1,2,2,3] 41759958240,
xp 16 14 [1,1,3,3] 28103446800,
xp 16 14 [1,1,2,4] 67243176000,
xp 16 14 [1,1,1,5] 38767528800,
xm 16 14 [3,3,4] 18668886350400,
xm 16 14 [2,4,4] 20266790544000,
xm 16 14 [2,3,5] 42263309088000,
xm 16 14 [1,4,5] 56083403376000,
xm 16 14 [2,2,6] 24498656582400,
xm 16 14 [1,3,6] 59921064403200,
xm 16 14 [1,2,7] 70597810483200,
xm 16 14 [1,1,8] 51888077841600,
xp 16 14 [6,6] 8211606577574400,
xp 16 14 [5,7] 16800680626329600,
xp 16 14 [4,8] 18079906330886400,
xp 16 14 [3,9] 20791665954259200,
xp 16 14 [2,10] 26413893586080000,
xp 16 14 [1,11] 41358429041529600,
xm 16 14 [14] 19154175561480960000,
xm 17 14 [1,1,1,2,2] 459459000,
xm 17 14 [1,1,1,1,3] 283783500,
xm 17 14 [2,2,2,3] 52086434400,
xm 17 14 [1,2,3,3] 206779716000,
xm 17 14 [1,2,2,4] 245880835200,
xm 17 14 [1,1,3,4] 319307788800,
xm 17 14 [1,1,2,5] 417621204000,
xm 17 14 [1,1,1,6] 244215972000,
xp 17 14 [3,4,4] 110406808512000,
xp 17 14 [3,3,5] 115428338625600,
xp 17 14 [2,4,5] 251990666928000,
xp 17 14 [1,5,5] 176386201992000,
xp 17 14 [2,3,6] 270338324256000,
xp 17 14 [1,4,6] 362083875753600,
xp 17 14 [2,2,7] 160882866144000,
xp 17 14 [1,3,7] 395060621155200,
xp 17 14 [1,2,8] 476954766288000,
xp 17 14 [1,1,9] 361287206280000,
xm 17 14 [6,7] 122563872419788800,
xm 17 14 [5,8] 127605491075462400,
xm 17 14 [4,9] 139346110167264000,
xm 17 14 [3,10] 162164161814054400,
xm 17 14 [2,11] 208537474835289600,
xm 17 14 [1,12] 331789123259193600,
xp 17 14 [15] 172387580053328640000,
xp 18 14 [1,1,2,2,2] 1216215000,
xp 18 14 [1,1,1,2,3] 2972970000,
xp 18 14 [1,1,1,1,4] 1013512500,
xp 18 14 [2,2,3,3] 298529122320,
xp 18 14 [1,3,3,3] 257114800800,
xp 18 14 [2,2,2,4] 235303548480,
xp 18 14 [1,2,3,4] 1811976566400,
xp 18 14 [1,1,4,4] 671058788400,
xp 18 14 [1,2,2,5] 1179047469600,
xp 18 14 [1,1,3,5] 1489598510400,
xp 18 14 [1,1,2,6] 2041533093600,
xp 18 14 [1,1,1,7] 1195133940000,
xm 18 14 [4,4,4] 170085278563200,
xm 18 14 [3,4,5] 1069786605888000,
xm 18 14 [2,5,5] 614782736568000,
xm 18 14 [3,3,6] 576283012905600,
xm 18 14 [2,4,6] 1263752336246400,
xm 18 14 [1,5,6] 1780464035750400,
xm 18 14 [2,3,7] 1385369684899200,
xm 18 14 [1,4,7] 1862790958828800,
xm 18 14 [2,2,8] 843085297454400,
xm 18 14 [1,3,8] 2068975920211200,
xm 18 14 [1,2,9] 2553405446592000,
xm 18 14 [1,1,10] 1977108293160000,
xp 18 14 [7,7] 355679320514918400,
xp 18 14 [6,8] 723706683168268800,
xp 18 14 [5,9] 764117822000332800,
xp 18 14 [4,10] 844298598208665600,
xp 18 14 [3,11] 992490827097369600,
xp 18 14 [2,12] 1290837948425625600,
xp 18 14 [1,13] 2076759226071129600,
xp 15 15 [1,1,1,1,1] 540540,
xp 15 15 [1,2,2,2] 276756480,
xp 15 15 [1,1,2,3] 1275674400,
xp 15 15 [1,1,1,4] 756756000,
xm 15 15 [3,3,3] 160308720000,
xm 15 15 [2,3,4] 1040431392000,
xm 15 15 [1,4,4] 674521848000,
xm 15 15 [2,2,5] 588453465600,
xm 15 15 [1,3,5] 1410160752000,
xm 15 15 [1,2,6] 1634229717120,
xm 15 15 [1,1,7] 1147709122560,
xp 15 15 [5,6] 358172009395200,
xp 15 15 [4,7] 377111493158400,
xp 15 15 [3,8] 425196547776000,
xp 15 15 [2,9] 533610536659200,
xp 15 15 [1,10] 808386132153600,
xm 15 15 [13] 340014950795520000,
xm 16 15 [1,1,1,1,2] 29729700,
xm 16 15 [2,2,2,2] 830269440,
xm 16 15 [1,2,2,3] 14659444800,
xm 16 15 [1,1,3,3] 10455588000,
xm 16 15 [1,1,2,4] 25513488000,
xm 16 15 [1,1,1,5] 15632416800,
xp 16 15 [3,3,4] 8568640080000,
xp 16 15 [2,4,4] 9306585288000,
xp 16 15 [2,3,5] 19478899440000,
xp 16 15 [1,4,5] 25750287763200,
xp 16 15 [2,2,6] 11375677272960,
xp 16 15 [1,3,6] 27690004742400,
xp 16 15 [1,2,7] 32850700122240,
xp 16 15 [1,1,8] 24042527308800,
xm 16 15 [6,6] 3939892103347200,
xm 16 15 [5,7] 8050239560563200,
xm 16 15 [4,8] 8633048231808000,
xm 16 15 [3,9] 9896393995488000,
xm 16 15 [2,10] 12563758592985600,
xm 16 15 [1,11] 19538540288467200,
xp 16 15 [14] 9180403671479040000,
xp 17 15 [1,1,1,2,2] 329729400,
xp 17 15 [1,1,1,1,3] 205405200,
xp 17 15 [2,2,2,3] 28449701280,
xp 17 15 [1,2,3,3] 119184436800,
xp 17 15 [1,2,2,4] 145534989600,
xp 17 15 [1,1,3,4] 196972776000,
xp 17 15 [1,1,2,5] 264432168000,
xp 17 15 [1,1,1,6] 163199836800,
xm 17 15 [3,4,4] 79634082528000]
def extD5_2 : PL := [
xm 17 15 [3,3,5] 83457646272000,
xm 17 15 [2,4,5] 182108185459200,
xm 17 15 [1,5,5] 127760693860800,
xm 17 15 [2,3,6] 196410510616320,
xm 17 15 [1,4,6] 262967866761600,
xm 17 15 [2,2,7] 117621728864640,
xm 17 15 [1,3,7] 288757488539520,
xm 17 15 [1,2,8] 350108173134720,
xm 17 15 [1,1,9] 264820275720000,
xp 17 15 [6,7] 91827967155724800,
xp 17 15 [5,8] 95409207769075200,
xp 17 15 [4,9] 103855926414240000,
xp 17 15 [3,10] 120598389585273600,
xp 17 15 [2,11] 154876759804166400,
xp 17 15 [1,12] 245673121332038400,
xm 17 15 [15] 128525651400706560000,
xm 18 15 [1,1,2,2,2] 1248647400,
xm 18 15 [1,1,1,2,3] 3091888800,
xm 18 15 [1,1,1,1,4] 1070269200,
xm 18 15 [2,2,3,3] 234134128800,
xm 18 15 [1,3,3,3] 211026816000,
xm 18 15 [2,2,2,4] 190226836800,
xm 18 15 [1,2,3,4] 1526484960000,
xm 18 15 [1,1,4,4] 598377780000,
xm 18 15 [1,2,2,5] 1026744919200,
xm 18 15 [1,1,3,5] 1339760822400,
xm 18 15 [1,1,2,6] 1888019733600,
xm 18 15 [1,1,1,7] 1161598838400,
xp 18 15 [4,4,4] 170976405600000,
xp 18 15 [3,4,5] 1076975182483200,
xp 18 15 [2,5,5] 619382688724800,
xp 18 15 [3,3,6] 582424152710400,
xp 18 15 [2,4,6] 1276237512950400,
xp 18 15 [1,5,6] 1806780982406400,
xp 18 15 [2,3,7] 1407133433946240,
xp 18 15 [1,4,7] 1897845107558400,
xp 18 15 [2,2,8] 860655692856960,
xp 18 15 [1,3,8] 2119860799056000,
xp 18 15 [1,2,9] 2622564815270400,
xp 18 15 [1,1,10] 2034679262616000,
xm 18 15 [7,7] 369534980432217600,
xm 18 15 [6,8] 751234143986726400,
xm 18 15 [5,9] 791318602410336000,
xm 18 15 [4,10] 871984182285216000,
xm 18 15 [3,11] 1023364548785779200,
xm 18 15 [2,12] 1328849528143737600,
xm 18 15 [1,13] 2138882937698707200,
xp 16 16 [1,1,1,1,2] 5405400,
xp 16 16 [2,2,2,2] 103783680,
xp 16 16 [1,2,2,3] 2075673600,
xp 16 16 [1,1,3,3] 1606176000,
xp 16 16 [1,1,2,4] 3978374400,
xp 16 16 [1,1,1,5] 2594592000,
xm 16 16 [3,3,4] 1662307920000,
xm 16 16 [2,4,4] 1808234064000,
xm 16 16 [2,3,5] 3799190304000,
xm 16 16 [1,4,5] 4989966508800,
xm 16 16 [2,2,6] 2237679924480,
xm 16 16 [1,3,6] 5398827033600,
xm 16 16 [1,2,7] 6465308129280,
xm 16 16 [1,1,8] 4708665561600,
xp 16 16 [6,6] 800421732633600,
xp 16 16 [5,7] 1634331425126400,
xp 16 16 [4,8] 1748469602880000,
xp 16 16 [3,9] 1998095299200000,
xp 16 16 [2,10] 2539301244480000,
xp 16 16 [1,11] 3914043740006400,
xm 16 16 [14] 1873551769689600000,
xm 17 16 [1,1,1,2,2] 129729600,
xm 17 16 [1,1,1,1,3] 81081000,
xm 17 16 [2,2,2,3] 8302694400,
xm 17 16 [1,2,3,3] 37575252000,
xm 17 16 [1,2,2,4] 47169682560,
xm 17 16 [1,1,3,4] 67199932800,
xm 17 16 [1,1,2,5] 92237745600,
xm 17 16 [1,1,1,6] 59935075200,
xp 17 16 [3,4,4] 32313481200000,
xp 17 16 [3,3,5] 33956722800000,
xp 17 16 [2,4,5] 74112444806400,
xp 17 16 [1,5,5] 51962224204800,
xp 17 16 [2,3,6] 80364373689600,
xp 17 16 [1,4,6] 107207503603200,
xp 17 16 [2,2,7] 48485763406080,
xp 17 16 [1,3,7] 118499167987200,
xp 17 16 [1,2,8] 144609325660800,
xp 17 16 [1,1,9] 109004258563200,
xm 17 16 [6,7] 38788610724864000,
xm 17 16 [5,8] 40251197802816000,
xm 17 16 [4,9] 43710650343360000,
xm 17 16 [3,10] 50660316907200000,
xm 17 16 [2,11] 65067457354099200,
xm 17 16 [1,12] 102652132763980800,
xp 17 16 [15] 54333001320998400000,
xp 18 16 [1,1,2,2,2] 789188400,
xp 18 16 [1,1,1,2,3] 1967565600,
xp 18 16 [1,1,1,1,4] 686485800,
xp 18 16 [2,2,3,3] 111928845600,
xp 18 16 [1,3,3,3] 107073252000,
xp 18 16 [2,2,2,4] 94391256960,
xp 18 16 [1,2,3,4] 797101905600,
xp 18 16 [1,1,4,4] 332612280000,
xp 18 16 [1,2,2,5] 554256743040,
xp 18 16 [1,1,3,5] 749880331200,
xp 18 16 [1,1,2,6] 1082334052800,
xp 18 16 [1,1,1,7] 696864168000,
xm 18 16 [4,4,4] 108576599040000,
xm 18 16 [3,4,5] 685180421452800,
xm 18 16 [2,5,5] 394625909059200,
xm 18 16 [3,3,6] 372094283433600,
xm 18 16 [2,4,6] 814979462169600,
xm 18 16 [1,5,6] 1155612642912000,
xm 18 16 [2,3,7] 903958551175680,
xm 18 16 [1,4,7] 1218364878931200,
xm 18 16 [2,2,8] 556323439351680,
xm 18 16 [1,3,8] 1369402046812800,
xm 18 16 [1,2,9] 1701369714844800,
xm 18 16 [1,1,10] 1318544411184000,
xp 18 16 [7,7] 243137146873420800,
xp 18 16 [6,8] 494022572614771200,
xp 18 16 [5,9] 519582288633408000,
xp 18 16 [4,10] 571352042701440000,
xp 18 16 [3,11] 669748999958438400,
xp 18 16 [2,12] 869276732279155200,
xp 18 16 [1,13] 1396004240837606400,
xp 17 17 [1,1,1,2,2] 21621600,
xp 17 17 [1,1,1,1,3] 13513500,
xp 17 17 [2,2,2,3] 951350400,
xp 17 17 [1,2,3,3] 4911192000,
xp 17 17 [1,2,2,4] 6348101760,
xp 17 17 [1,1,3,4] 9686476800,
xp 17 17 [1,1,2,5] 13556743200,
xp 17 17 [1,1,1,6] 9275666400,
xm 17 17 [3,4,4] 5653976328000,
xm 17 17 [3,3,5] 5957831880000,
xm 17 17 [2,4,5] 13016808604800,
xm 17 17 [1,5,5] 9100224806400,
xm 17 17 [2,3,6] 14184634464000,
xm 17 17 [1,4,6] 18810532540800,
xm 17 17 [2,2,7] 8626369752000,
xm 17 17 [1,3,7] 20918033136000,
xm 17 17 [1,2,8] 25735758048000,
xm 17 17 [1,1,9] 19314186091200,
xp 17 17 [6,7] 7074513660614400,
xp 17 17 [5,8] 7336310069088000,
xp 17 17 [4,9] 7953698424672000,
xp 17 17 [3,10] 9199789039584000,
xp 17 17 [2,11] 11831635303488000,
xp 17 17 [1,12] 18527345278041600,
xm 17 17 [15] 9961050242183040000,
xm 18 17 [1,1,2,2,2] 281080800,
xm 18 17 [1,1,1,2,3] 702702000,
xm 18 17 [1,1,1,1,4] 245945700,
xm 18 17 [2,2,3,3] 29003832000,
xm 18 17 [1,3,3,3] 30347460000,
xm 18 17 [2,2,2,4] 25703758080,
xm 18 17 [1,2,3,4] 233167334400,
xm 18 17 [1,1,4,4] 104533228800,
xm 18 17 [1,2,2,5] 167896048320,
xm 18 17 [1,1,3,5] 237210573600,
xm 18 17 [1,1,2,6] 349621272000,
xm 18 17 [1,1,1,7] 234983548800,
xp 18 17 [4,4,4] 39577834296000,
xp 18 17 [3,4,5] 250265263248000,
xp 18 17 [2,5,5] 144451951862400,
xp 18 17 [3,3,6] 136459323000000,
xp 18 17 [2,4,6] 298908933523200,
xp 18 17 [1,5,6] 423441306288000,
xp 18 17 [2,3,7] 333418044960000,
xp 18 17 [1,4,7] 447841541347200,
xp 18 17 [2,2,8] 206602820424000,
xp 18 17 [1,3,8] 506451385440000,
xp 18 17 [1,2,9] 632866913078400,
xp 18 17 [1,1,10] 488990083982400,
xm 18 17 [7,7] 91968677587987200,
xm 18 17 [6,8] 186817115669184000,
xm 18 17 [5,9] 196300556996544000,
xm 18 17 [4,10] 215518793345856000,
xm 18 17 [3,11] 252353746348704000,
xm 18 17 [2,12] 327709647814348800,
xm 18 17 [1,13] 523900587450240000,
xp 18 18 [1,1,2,2,2] 43243200,
xp 18 18 [1,1,1,2,3] 108108000,
xp 18 18 [1,1,1,1,4] 37837800,
xp 18 18 [2,2,3,3] 2965248000,
xp 18 18 [1,3,3,3] 3629340000,
xp 18 18 [2,2,2,4] 2836753920,
xp 18 18 [1,2,3,4] 28886457600,
xp 18 18 [1,1,4,4] 14126112000,
xp 18 18 [1,2,2,5] 21638897280,
xp 18 18 [1,1,3,5] 32302670400,
xp 18 18 [1,1,2,6] 48518870400,
xp 18 18 [1,1,1,7] 34010776800,
xm 18 18 [4,4,4] 6317088624000,
xm 18 18 [3,4,5] 40027968288000,
xm 18 18 [2,5,5] 23169154982400,
xm 18 18 [3,3,6] 21905470224000,
xm 18 18 [2,4,6] 48018393561600,
xm 18 18 [1,5,6] 67824111801600,
xm 18 18 [2,3,7] 53833373193600,
xm 18 18 [1,4,7] 71915430787200,
xm 18 18 [2,2,8] 33597112348800,
xm 18 18 [1,3,8] 81782837136000,
xm 18 18 [1,2,9] 102912934924800,
xm 18 18 [1,1,10] 79196028912000,
xp 18 18 [7,7] 15247303325654400,
xp 18 18 [6,8] 30967597140480000,
xp 18 18 [5,9] 32523169206528000,
xp 18 18 [4,10] 35667544872960000,
xp 18 18 [3,11] 41709908560320000,
xp 18 18 [2,12] 54240480245952000,
xp 18 18 [1,13] 86160251136960000]
/-- row 5 -/
def extD5 : PL := extD5_0 ++ extD5_1 ++ extD5_2
def extD6_0 : PL := [
xp 11 11 [1,2,2] 804323520,
xp 11 11 [1,1,3] 994593600,
xm 11 11 [3,4] 108972864000,
xm 11 11 [2,5] 130767436800,
xm 11 11 [1,6] 205491686400,
xp 11 11 [9] 37844718912000,
xp 12 11 [1,1,1,1] 21621600,
xm 12 11 [2,2,2] 2412970560,
xm 12 11 [1,2,3] 17902684800,
xm 12 11 [1,1,4] 12410798400,
xp 12 11 [4,4] 762810048000,
xp 12 11 [3,5] 1634592960000,
xp 12 11 [2,6] 2054916864000,
xp 12 11 [1,7] 3339239904000,
xm 12 11 [10] 719049659328000,
xm 13 11 [1,1,1,2] 345945600,
xp 13 11 [2,2,3] 41798877120,
xp 13 11 [1,3,3] 51502651200,
xp 13 11 [1,2,4] 114940425600,
xp 13 11 [1,1,5] 85059374400,
xm 13 11 [4,5] 11878042176000,
xm 13 11 [3,6] 13328938022400,
xm 13 11 [2,7] 17312674579200,
xm 13 11 [1,8] 28717463174400,
xp 13 11 [11] 7190496593280000,
xp 14 11 [1,1,2,2] 1427025600,
xp 14 11 [1,1,1,3] 1167566400,
xm 14 11 [2,3,3] 167740372800,
xm 14 11 [2,2,4] 186680894400,
xm 14 11 [1,3,4] 456821164800,
xm 14 11 [1,2,5] 544864320000,
xm 14 11 [1,1,6] 418637419200,
xp 14 11 [5,5] 32038022016000,
xp 14 11 [4,6] 67111716672000,
xp 14 11 [3,7] 77829976224000,
xp 14 11 [2,8] 103516437024000,
xp 14 11 [1,9] 173640475008000,
xm 14 11 [12] 50333476152960000,
xp 15 11 [1,1,1,1,1] 2702700,
xm 15 11 [1,2,2,2] 2075673600,
xm 15 11 [1,1,2,3] 7524316800,
xm 15 11 [1,1,1,4] 3372969600,
xp 15 11 [3,3,3] 175913337600,
xp 15 11 [2,3,4] 1172236665600,
xp 15 11 [1,4,4] 788799211200,
xp 15 11 [2,2,5] 695869574400,
xp 15 11 [1,3,5] 1686225340800,
xp 15 11 [1,2,6] 2101360060800,
xp 15 11 [1,1,7] 1647306460800,
xm 15 11 [5,6] 282270852864000,
xm 15 11 [4,7] 305589489004800,
xm 15 11 [3,8] 363155182790400,
xm 15 11 [2,9] 491536113868800,
xm 15 11 [1,10] 828131496192000,
xp 15 11 [13] 276834118841280000,
xm 16 11 [1,1,1,1,2] 18918900,
xp 16 11 [2,2,2,2] 972972000,
xp 16 11 [1,2,2,3] 13881067200,
xp 16 11 [1,1,3,3] 8237829600,
xp 16 11 [1,1,2,4] 18291873600,
xp 16 11 [1,1,1,5] 8562153600,
xm 16 11 [3,3,4] 1541706566400,
xm 16 11 [2,4,4] 1708668561600,
xm 16 11 [2,3,5] 3646699056000,
xm 16 11 [1,4,5] 4841422185600,
xm 16 11 [2,2,6] 2259007470720,
xm 16 11 [1,3,6] 5410502697600,
xm 16 11 [1,2,7] 6948109808640,
xm 16 11 [1,1,8] 5494048560000,
xp 16 11 [6,6] 516923677670400,
xp 16 11 [5,7] 1068701547513600,
xp 16 11 [4,8] 1185943895136000,
xp 16 11 [3,9] 1435873158720000,
xp 16 11 [2,10] 1968815847398400,
xp 16 11 [1,11] 3315197376691200,
xm 16 11 [14] 1273436946669888000,
xp 17 11 [1,1,1,2,2] 48648600,
xp 17 11 [1,1,1,1,3] 27027000,
xm 17 11 [2,2,2,3] 7697289600,
xm 17 11 [1,2,3,3] 26983756800,
xm 17 11 [1,2,2,4] 29837808000,
xm 17 11 [1,1,3,4] 34767532800,
xm 17 11 [1,1,2,5] 40994553600,
xm 17 11 [1,1,1,6] 19545926400,
xp 17 11 [3,4,4] 3917660947200,
xp 17 11 [3,3,5] 4175217446400,
xp 17 11 [2,4,5] 9232336713600,
xp 17 11 [1,5,5] 6435755726400,
xp 17 11 [2,3,6] 10290930249600,
xp 17 11 [1,4,6] 13459964918400,
xp 17 11 [2,2,7] 6564162084480,
xp 17 11 [1,3,7] 15524395286400,
xp 17 11 [1,2,8] 20356130995200,
xp 17 11 [1,1,9] 16112546049600,
xm 17 11 [6,7] 3388067530848000,
xm 17 11 [5,8] 3590430139296000,
xm 17 11 [4,9] 4061029452480000,
xm 17 11 [3,10] 4988824416576000,
xm 17 11 [2,11] 6905548121472000,
xm 17 11 [1,12] 11580483987072000,
xp 17 11 [15] 5093747786679552000,
xm 18 11 [1,1,2,2,2] 59459400,
xm 18 11 [1,1,1,2,3] 129729600,
xm 18 11 [1,1,1,1,4] 37837800,
xp 18 11 [2,2,3,3] 20562141600,
xp 18 11 [1,3,3,3] 15762146400,
xp 18 11 [2,2,2,4] 15091876800,
xp 18 11 [1,2,3,4] 104043139200,
xp 18 11 [1,1,4,4] 32756724000,
xp 18 11 [1,2,2,5] 60972912000,
xp 18 11 [1,1,3,5] 69794524800,
xp 18 11 [1,1,2,6] 85362076800,
xp 18 11 [1,1,1,7] 40886445600,
xm 18 11 [4,4,4] 2969078112000,
xm 18 11 [3,4,5] 18964651305600,
xm 18 11 [2,5,5] 11128853736000,
xm 18 11 [3,3,6] 10546238102400,
xm 18 11 [2,4,6] 23252992963200,
xm 18 11 [1,5,6] 31885460006400,
xm 18 11 [2,3,7] 26736025155840,
xm 18 11 [1,4,7] 34425738547200,
xm 18 11 [2,2,8] 17404678811520,
xm 18 11 [1,3,8] 40636759363200,
xm 18 11 [1,2,9] 54052875676800,
xm 18 11 [1,1,10] 42612411441600,
xp 18 11 [7,7] 4938838563859200,
xp 18 11 [6,8] 10126784424556800,
xp 18 11 [5,9] 10940377383936000,
xp 18 11 [4,10] 12562220518848000,
xp 18 11 [3,11] 15610278703219200,
xp 18 11 [2,12] 21753144430617600,
xp 18 11 [1,13] 36240102830131200,
xm 12 12 [1,1,1,1] 19819800,
xp 12 12 [2,2,2] 2487101760,
xp 12 12 [1,2,3] 17532028800,
xp 12 12 [1,1,4] 11891880000,
xm 12 12 [4,4] 765837072000,
xm 12 12 [3,5] 1626809184000,
xm 12 12 [2,6] 2072041171200,
xm 12 12 [1,7] 3265034572800,
xp 12 12 [10] 719049659328000,
xp 13 12 [1,1,1,2] 665945280,
xm 13 12 [2,2,3] 89902612800,
xm 13 12 [1,3,3] 106841592000,
xm 13 12 [1,2,4] 238443004800,
xm 13 12 [1,1,5] 170075505600,
xp 13 12 [4,5] 25172731584000,
xp 13 12 [3,6] 28255106880000,
xp 13 12 [2,7] 36731638944000,
xp 13 12 [1,8] 58993238304000,
xm 13 12 [11] 15100042845888000,
xm 14 12 [1,1,2,2] 4475671200,
xm 14 12 [1,1,1,3] 3524320800,
xp 14 12 [2,3,3] 573886684800,
xp 14 12 [2,2,4] 631486627200,
xp 14 12 [1,3,4] 1509681888000,
xp 14 12 [1,2,5] 1784560377600,
xp 14 12 [1,1,6] 1318571654400,
xm 14 12 [5,5] 107583459984000,
xm 14 12 [4,6] 225270261216000,
xm 14 12 [3,7] 261642289708800,
xm 14 12 [2,8] 345500022067200,
xm 14 12 [1,9] 562105383840000,
xp 14 12 [12] 166100471304768000,
xm 15 12 [1,1,1,1,1] 9009000,
xp 15 12 [1,2,2,2] 9379450080,
xp 15 12 [1,1,2,3] 33457263840,
xp 15 12 [1,1,1,4] 14327913600,
xm 15 12 [3,3,3] 856030032000,
xm 15 12 [2,3,4] 5623518700800,
xm 15 12 [1,4,4] 3684104424000,
xm 15 12 [2,2,5] 3285531849600,
xm 15 12 [1,3,5] 7864467811200,
xm 15 12 [1,2,6] 9633979555200,
xm 15 12 [1,1,7] 7292100816000,
xp 15 12 [5,6] 1330558669440000,
xp 15 12 [4,7] 1441010450880000,
xp 15 12 [3,8] 1711916990784000,
xp 15 12 [2,9] 2288492414208000,
xp 15 12 [1,10] 3752934625440000,
xm 15 12 [13] 1273436946669888000,
xp 16 12 [1,1,1,1,2] 89189100,
xm 16 12 [2,2,2,2] 5867021160,
xm 16 12 [1,2,2,3] 83416132800,
xm 16 12 [1,1,3,3] 49589139600,
xm 16 12 [1,1,2,4] 107390162880,
xm 16 12 [1,1,1,5] 48410762400,
xp 16 12 [3,3,4] 9871866576000,
xp 16 12 [2,4,4] 10791908899200,
xp 16 12 [2,3,5] 22914546969600,
xp 16 12 [1,4,5] 29911234953600,
xp 16 12 [2,2,6] 13923618508800,
xp 16 12 [1,3,6] 33252031612800,
xp 16 12 [1,2,7] 41757623107200,
xp 16 12 [1,1,8] 32099513846400,
xm 16 12 [6,6] 3199034638800000,
xm 16 12 [5,7] 6614263656000000,
xm 16 12 [4,8] 7343159791968000,
xm 16 12 [3,9] 8863455785184000,
xm 16 12 [2,10] 11964496576032000,
xm 16 12 [1,11] 19698176193696000,
xp 16 12 [14] 7640621680019328000,
xm 17 12 [1,1,1,2,2] 302702400,
xm 17 12 [1,1,1,1,3] 175675500,
xp 17 12 [2,2,2,3] 59001022080,
xp 17 12 [1,2,3,3] 208592223840,
xp 17 12 [1,2,2,4] 226650584160,
xp 17 12 [1,1,3,4] 268021353600,
xp 17 12 [1,1,2,5] 305033208480,
xp 17 12 [1,1,1,6] 141967425600,
xm 17 12 [3,4,4] 31727968272000,
xm 17 12 [3,3,5] 33573316233600,
xm 17 12 [2,4,5] 73377396892800,
xm 17 12 [1,5,5] 50414998233600,
xm 17 12 [2,3,6] 81087486480000,
xm 17 12 [1,4,6] 105303073075200,
xm 17 12 [2,2,7] 50617739652480,
xm 17 12 [1,3,7] 120288917548800,
xm 17 12 [1,2,8] 153870462345600,
xm 17 12 [1,1,9] 119322172569600,
xp 17 12 [6,7] 26364840229728000,
xp 17 12 [5,8] 27946783728864000,
xp 17 12 [4,9] 31600340291520000,
xp 17 12 [3,10] 38594934810432000,
xp 17 12 [2,11] 52501978546617600,
xp 17 12 [1,12] 86501674017158400,
xm 17 12 [15] 38203108400096640000,
xp 18 12 [1,1,1,1,1,1] 45045,
xp 18 12 [1,1,2,2,2] 463062600,
xp 18 12 [1,1,1,2,3] 1059458400,
xp 18 12 [1,1,1,1,4] 328828500,
xm 18 12 [2,2,3,3] 195372777600,
xm 18 12 [1,3,3,3] 152107956000,
xm 18 12 [2,2,2,4] 141643101600,
xm 18 12 [1,2,3,4] 993936303360,
xm 18 12 [1,1,4,4] 317242926000,
xm 18 12 [1,2,2,5] 567255648960,
xm 18 12 [1,1,3,5] 664864200000,
xm 18 12 [1,1,2,6] 783942999840,
xm 18 12 [1,1,1,7] 371728637280,
xp 18 12 [4,4,4] 29597190480000,
xp 18 12 [3,4,5] 187569949881600,
xp 18 12 [2,5,5] 108228345825600,
xp 18 12 [3,3,6] 103182624230400,
xp 18 12 [2,4,6] 225470304259200,
xp 18 12 [1,5,6] 307179454982400,
xp 18 12 [2,3,7] 256241646460800,
xp 18 12 [1,4,7] 330502415443200,
xp 18 12 [2,2,8] 163083339619200,
xp 18 12 [1,3,8] 384937301548800,
xp 18 12 [1,2,9] 499387608720000,
xp 18 12 [1,1,10] 388668973492800,
xm 18 12 [7,7] 46882913981904000,
xm 18 12 [6,8] 96140484183744000,
xm 18 12 [5,9] 103885380222624000,
xm 18 12 [4,10] 119098443496032000,
xm 18 12 [3,11] 146789646939936000,
xm 18 12 [2,12] 200898690344352000,
xm 18 12 [1,13] 330403318461216000,
xm 13 13 [1,1,1,2] 319999680,
xp 13 13 [2,2,3] 49037788800,
xp 13 13 [1,3,3] 56339712000,
xp 13 13 [1,2,4] 125578252800,
xp 13 13 [1,1,5] 86399913600,
xm 13 13 [4,5] 13730580864000,
xm 13 13 [3,6] 15411876480000,
xm 13 13 [2,7] 20035439424000,
xm 13 13 [1,8] 31166239104000,
xp 13 13 [11] 8236387006848000,
xp 14 13 [1,1,2,2] 4657292640,
xp 14 13 [1,1,1,3] 3567564000,
xm 14 13 [2,3,3] 659397024000,
xm 14 13 [2,2,4] 719999280000,
xm 14 13 [1,3,4] 1689079392000,
xm 14 13 [1,2,5] 1975522348800,
xm 14 13 [1,1,6] 1412755344000,
xp 14 13 [5,5] 123575227776000,
xp 14 13 [4,6] 258919524864000,
xp 14 13 [3,7] 300531591360000,
xp 14 13 [2,8] 394030308672000,
xp 14 13 [1,9] 624437862048000,
xm 14 13 [12] 189436901157504000,
xp 15 13 [1,1,1,1,1] 10810800,
xm 15 13 [1,2,2,2] 15749173440,
xm 15 13 [1,1,2,3] 55597782240,
xm 15 13 [1,1,1,4] 23113490400,
xp 15 13 [3,3,3] 1563982992000,
xp 15 13 [2,3,4] 10179622252800,
xp 15 13 [1,4,4] 6551344800000,
xp 15 13 [2,2,5] 5868188726400,
xp 15 13 [1,3,5] 13929326611200,
xp 15 13 [1,2,6] 16798945363200,
xp 15 13 [1,1,7] 12380874105600,
xm 15 13 [5,6] 2408736185856000,
xm 15 13 [4,7] 2609230688064000,
xm 15 13 [3,8] 3092136151104000,
xm 15 13 [2,9] 4088342722464000,
xm 15 13 [1,10] 6566058731232000,
xp 15 13 [13] 2273242813890048000,
xm 16 13 [1,1,1,1,2] 162162000,
xp 16 13 [2,2,2,2] 13971877920,
xp 16 13 [1,2,2,3] 198590071680,
xp 16 13 [1,1,3,3] 118270152000,
xp 16 13 [1,1,2,4] 252475423200,
xp 16 13 [1,1,1,5] 111243132000,
xm 16 13 [3,3,4] 25272994032000,
xm 16 13 [2,4,4] 27393702336000,
xm 16 13 [2,3,5] 57886385356800,
xm 16 13 [1,4,5] 74856573792000,
xm 16 13 [2,2,6] 34609003228800,
xm 16 13 [1,3,6] 82601430912000,
xm 16 13 [1,2,7] 101889627840000,
xm 16 13 [1,1,8] 76802517792000,
xp 16 13 [6,6] 8091235152000000,
xp 16 13 [5,7] 16732674294336000,
xp 16 13 [4,8] 18563947706304000,
xp 16 13 [3,9] 22307235638688000,
xp 16 13 [2,10] 29727026705376000,
xp 16 13 [1,11] 48176327174976000,
xm 16 13 [14] 18943690115750400000,
xp 17 13 [1,1,1,2,2] 756756000,
xp 17 13 [1,1,1,1,3] 459459000,
xm 17 13 [2,2,2,3] 185954408640,
xm 17 13 [1,2,3,3] 662451229440,
xm 17 13 [1,2,2,4] 712890097920,
xm 17 13 [1,1,3,4] 852280228800,
xm 17 13 [1,1,2,5] 950809860000,
xm 17 13 [1,1,1,6] 436950914400,
xp 17 13 [3,4,4] 106735028400000,
xp 17 13 [3,3,5] 112367924697600,
xp 17 13 [2,4,5] 243912404736000,
xp 17 13 [1,5,5] 166414536288000,
xp 17 13 [2,3,6] 267335343475200,
xp 17 13 [1,4,6] 346547199398400,
xp 17 13 [2,2,7] 164057089996800,
xp 17 13 [1,3,7] 391938029683200,
xp 17 13 [1,2,8] 492255334771200,
xp 17 13 [1,1,9] 377000185161600,
xm 17 13 [6,7] 87169573370880000,
xm 17 13 [5,8] 92394713226816000,
xm 17 13 [4,9] 104287801441824000,
xm 17 13 [3,10] 126578340880992000,
xm 17 13 [2,11] 169884943195968000,
xm 17 13 [1,12] 276834118841280000,
xp 17 13 [15] 123133985752377600000,
xm 18 13 [1,1,1,1,1,1] 270270,
xm 18 13 [1,1,2,2,2] 1491890400,
xm 18 13 [1,1,1,2,3] 3567564000,
xm 18 13 [1,1,1,1,4] 1183782600,
xp 18 13 [2,2,3,3] 782580839040,
xp 18 13 [1,3,3,3] 617188572000,
xp 18 13 [2,2,2,4] 563882679360,
xp 18 13 [1,2,3,4] 4011931123200,
xp 18 13 [1,1,4,4] 1296258163200,
xp 18 13 [1,2,2,5] 2257515580320,
xp 18 13 [1,1,3,5] 2693100009600,
xp 18 13 [1,1,2,6] 3110902835040,
xp 18 13 [1,1,1,7] 1472405014080,
xm 18 13 [4,4,4] 125584739280000,
xm 18 13 [3,4,5] 791923964832000,
xm 18 13 [2,5,5] 452447547552000,
xm 18 13 [3,3,6] 432038486880000,
xm 18 13 [2,4,6] 939486195648000,
xm 18 13 [1,5,6] 1279431715161600,
xm 18 13 [2,3,7] 1056582208281600,
xm 18 13 [1,4,7] 1369287625305600,
xm 18 13 [2,2,8] 661272246835200,
xm 18 13 [1,3,8] 1576292477760000,
xm 18 13 [1,2,9] 2009554574227200,
xm 18 13 [1,1,10] 1555084023292800,
xp 18 13 [7,7] 194124913766784000,
xp 18 13 [6,8] 398095961687424000,
xp 18 13 [5,9] 429908215280544000,
xp 18 13 [4,10] 491423692792032000,
xp 18 13 [3,11] 601087670479296000,
xp 18 13 [2,12] 811807065381312000,
xp 18 13 [1,13] 1326287096630496000,
xm 14 14 [1,1,2,2] 1606484880,
xm 14 14 [1,1,1,3] 1210809600,
xp 14 14 [2,3,3] 252880056000,
xp 14 14 [2,2,4] 275415940800,
xp 14 14 [1,3,4] 635675040000,
xp 14 14 [1,2,5] 734788454400,
xp 14 14 [1,1,6] 512302190400,
xm 14 14 [5,5] 48005023248000,
xm 14 14 [4,6] 100818061344000,
xm 14 14 [3,7] 116637288768000,
xm 14 14 [2,8] 152087199264000,
xm 14 14 [1,9] 235669385952000,
xp 14 14 [12] 73669906005696000,
xm 15 14 [1,1,1,1,1] 5405400,
xp 15 14 [1,2,2,2] 11658984480,
xp 15 14 [1,1,2,3] 40861735200,
xp 15 14 [1,1,1,4] 16735118400,
xm 15 14 [3,3,3] 1264400280000,
xm 15 14 [2,3,4] 8201505312000,
xm 15 14 [1,4,4] 5215562352000,
xm 15 14 [2,2,5] 4683108830400,
xm 15 14 [1,3,5] 11021826816000,
xm 15 14 [1,2,6] 13125781468800]
def extD6_1 : PL := [
xm 15 14 [1,1,7] 9479731060800,
xp 15 14 [5,6] 1963473063552000,
xp 15 14 [4,7] 2127095818848000,
xp 15 14 [3,8] 2509995327840000,
xp 15 14 [2,9] 3292490545344000,
xp 15 14 [1,10] 5196767992416000,
xm 15 14 [13] 1841747650142400000,
xp 16 14 [1,1,1,1,2] 140540400,
xm 16 14 [2,2,2,2] 16478439120,
xm 16 14 [1,2,2,3] 234258298560,
xm 16 14 [1,1,3,3] 139446964800,
xm 16 14 [1,1,2,4] 296259163200,
xm 16 14 [1,1,1,5] 129059330400,
xp 16 14 [3,3,4] 32194253520000,
xp 16 14 [2,4,4] 34768613880000,
xp 16 14 [2,3,5] 73169310614400,
xp 16 14 [1,4,5] 94040987040000,
xp 16 14 [2,2,6] 43221751372800,
xp 16 14 [1,3,6] 102907745740800,
xp 16 14 [1,2,7] 125335658448000,
xp 16 14 [1,1,8] 93090587990400,
xm 16 14 [6,6] 10345420573488000,
xm 16 14 [5,7] 21398220331488000,
xm 16 14 [4,8] 23702666891904000,
xm 16 14 [3,9] 28337902905312000,
xm 16 14 [2,10] 37421546145984000,
xm 16 14 [1,11] 59877226176768000,
xp 16 14 [14] 23942719451851200000,
xm 17 14 [1,1,1,2,2] 966485520,
xm 17 14 [1,1,1,1,3] 616215600,
xp 17 14 [2,2,2,3] 309128957280,
xp 17 14 [1,2,3,3] 1107297734400,
xp 17 14 [1,2,2,4] 1187464449600,
xp 17 14 [1,1,3,4] 1427454943200,
xp 17 14 [1,1,2,5] 1581252472800,
xp 17 14 [1,1,1,6] 722399277600,
xm 17 14 [3,4,4] 190193755752000,
xm 17 14 [3,3,5] 199622719296000,
xm 17 14 [2,4,5] 431895784320000,
xm 17 14 [1,5,5] 293491165968000,
xm 17 14 [2,3,6] 470126837980800,
xm 17 14 [1,4,6] 608849553312000,
xm 17 14 [2,2,7] 284931347500800,
xm 17 14 [1,3,7] 682397933817600,
xm 17 14 [1,2,8] 846608623660800,
xm 17 14 [1,1,9] 642432654864000,
xp 17 14 [6,7] 155114372020608000,
xp 17 14 [5,8] 164339578795392000,
xp 17 14 [4,9] 184986470148480000,
xp 17 14 [3,10] 223245423457056000,
xp 17 14 [2,11] 296804088925344000,
xp 17 14 [1,12] 479540754620928000,
xm 17 14 [15] 215484475066660800000,
xp 18 14 [1,1,1,1,1,1] 675675,
xp 18 14 [1,1,2,2,2] 2564321760,
xp 18 14 [1,1,1,2,3] 6410804400,
xp 18 14 [1,1,1,1,4] 2278376100,
xm 18 14 [2,2,3,3] 1717167703680,
xm 18 14 [1,3,3,3] 1367692840800,
xm 18 14 [2,2,2,4] 1234803398400,
xm 18 14 [1,2,3,4] 8871552518400,
xm 18 14 [1,1,4,4] 2890310623200,
xm 18 14 [1,2,2,5] 4967995032000,
xm 18 14 [1,1,3,5] 5990091307200,
xm 18 14 [1,1,2,6] 6864858000000,
xm 18 14 [1,1,1,7] 3251023776000,
xp 18 14 [4,4,4] 293098517712000,
xp 18 14 [3,4,5] 1843676859024000,
xp 18 14 [2,5,5] 1048098411360000,
xp 18 14 [3,3,6] 1000260491630400,
xp 18 14 [2,4,6] 2169643235760000,
xp 18 14 [1,5,6] 2958181258032000,
xp 18 14 [2,3,7] 2419831958544000,
xp 18 14 [1,4,7] 3147678063129600,
xp 18 14 [2,2,8] 1496625919588800,
xp 18 14 [1,3,8] 3590564798620800,
xp 18 14 [1,2,9] 4525560533894400,
xp 18 14 [1,1,10] 3488485376376000,
xm 18 14 [7,7] 449858453492448000,
xm 18 14 [6,8] 922411595641536000,
xm 18 14 [5,9] 994884232358016000,
xm 18 14 [4,10] 1133218721482848000,
xm 18 14 [3,11] 1377535726895328000,
xm 18 14 [2,12] 1843283801687328000,
xm 18 14 [1,13] 2997358504908768000,
xp 15 15 [1,1,1,1,1] 900900,
xm 15 15 [1,2,2,2] 3213587520,
xm 15 15 [1,1,2,3] 11196900000,
xm 15 15 [1,1,1,4] 4576572000,
xp 15 15 [3,3,3] 380849040000,
xp 15 15 [2,3,4] 2475240768000,
xp 15 15 [1,4,4] 1560430872000,
xp 15 15 [2,2,5] 1405749945600,
xp 15 15 [1,3,5] 3273077808000,
xp 15 15 [1,2,6] 3861531273600,
xp 15 15 [1,1,7] 2745597254400,
xm 15 15 [5,6] 604145558016000,
xm 15 15 [4,7] 654491021184000,
xm 15 15 [3,8] 768025177920000,
xm 15 15 [2,9] 1002885051168000,
xm 15 15 [1,10] 1557940928544000,
xp 15 15 [13] 566691584659200000,
xm 16 15 [1,1,1,1,2] 56756700,
xp 16 15 [2,2,2,2] 9640762560,
xp 16 15 [1,2,2,3] 136985191200,
xp 16 15 [1,1,3,3] 81281772000,
xp 16 15 [1,1,2,4] 173145772800,
xp 16 15 [1,1,1,5] 75243168000,
xm 16 15 [3,3,4] 20374033680000,
xm 16 15 [2,4,4] 22007977992000,
xm 16 15 [2,3,5] 46153899792000,
xm 16 15 [1,4,5] 59008805856000,
xm 16 15 [2,2,6] 27047843222400,
xm 16 15 [1,3,6] 64044908928000,
xm 16 15 [1,2,7] 77359057776000,
xm 16 15 [1,1,8] 56767078368000,
xp 16 15 [6,6] 6645601138176000,
xp 16 15 [5,7] 13744311444864000,
xp 16 15 [4,8] 15193541563200000,
xp 16 15 [3,9] 18070853280480000,
xp 16 15 [2,10] 23728638757824000,
xp 16 15 [1,11] 37521318586752000,
xm 16 15 [14] 15300672785798400000,
xp 17 15 [1,1,1,2,2] 656215560,
xp 17 15 [1,1,1,1,3] 443242800,
xm 17 15 [2,2,2,3] 286265041920,
xm 17 15 [1,2,3,3] 1028477736000,
xm 17 15 [1,2,2,4] 1103961830400,
xm 17 15 [1,1,3,4] 1327844232000,
xm 17 15 [1,1,2,5] 1474268796000,
xm 17 15 [1,1,1,6] 672583111200,
xp 17 15 [3,4,4] 189109432512000,
xp 17 15 [3,3,5] 198159369408000,
xp 17 15 [2,4,5] 428426814816000,
xp 17 15 [1,5,5] 290126628792000,
xp 17 15 [2,3,6] 463855449657600,
xp 17 15 [1,4,6] 599627076048000,
xp 17 15 [2,2,7] 278775159062400,
xp 17 15 [1,3,7] 666931830364800,
xp 17 15 [1,2,8] 821119092393600,
xp 17 15 [1,1,9] 618037652232000,
xm 17 15 [6,7] 155718517578624000,
xm 17 15 [5,8] 164838238621056000,
xm 17 15 [4,9] 184977194482080000,
xm 17 15 [3,10] 222129577653984000,
xm 17 15 [2,11] 293502997307520000,
xm 17 15 [1,12] 470389213502208000,
xp 17 15 [15] 214209419001177600000,
xm 18 15 [1,1,1,1,1,1] 900900,
xm 18 15 [1,1,2,2,2] 2513511000,
xm 18 15 [1,1,1,2,3] 6605398800,
xm 18 15 [1,1,1,1,4] 2522520000,
xp 18 15 [2,2,3,3] 2232720547200,
xp 18 15 [1,3,3,3] 1790592804000,
xp 18 15 [2,2,2,4] 1606877157600,
xp 18 15 [1,2,3,4] 11614326609600,
xp 18 15 [1,1,4,4] 3801185388000,
xp 18 15 [1,2,2,5] 6513982675200,
xp 18 15 [1,1,3,5] 7890694812000,
xp 18 15 [1,1,2,6] 9051623380800,
xp 18 15 [1,1,1,7] 4292017329600,
xm 18 15 [4,4,4] 406135810080000,
xm 18 15 [3,4,5] 2552502528576000,
xm 18 15 [2,5,5] 1448371957032000,
xm 18 15 [3,3,6] 1380086836128000,
xm 18 15 [2,4,6] 2990538414864000,
xm 18 15 [1,5,6] 4080053001024000,
xm 18 15 [2,3,7] 3314966198544000,
xm 18 15 [1,4,7] 4318664654304000,
xm 18 15 [2,2,8] 2033931025526400,
xm 18 15 [1,3,8] 4892542999344000,
xm 18 15 [1,2,9] 6123052903968000,
xm 18 15 [1,1,10] 4700629461528000,
xp 18 15 [7,7] 626347907273088000,
xp 18 15 [6,8] 1283830887411072000,
xp 18 15 [5,9] 1382417493256800000,
xp 18 15 [4,10] 1569010508825760000,
xp 18 15 [3,11] 1898062312097952000,
xp 18 15 [2,12] 2523995040542976000,
xp 18 15 [1,13] 4085171692553952000,
xp 16 16 [1,1,1,1,2] 8108100,
xm 16 16 [2,2,2,2] 2239503552,
xm 16 16 [1,2,2,3] 31781898720,
xm 16 16 [1,1,3,3] 18752104800,
xm 16 16 [1,1,2,4] 40263743520,
xm 16 16 [1,1,1,5] 17578360800,
xp 16 16 [3,3,4] 5122196352000,
xp 16 16 [2,4,4] 5549938430400,
xp 16 16 [2,3,5] 11602425744000,
xp 16 16 [1,4,5] 14753935123200,
xp 16 16 [2,2,6] 6770484040320,
xp 16 16 [1,3,6] 15896027347200,
xp 16 16 [1,2,7] 19102476032640,
xp 16 16 [1,1,8] 13873023964800,
xm 16 16 [6,6] 1709366786265600,
xm 16 16 [5,7] 3533074607462400,
xm 16 16 [4,8] 3897741399552000,
xm 16 16 [3,9] 4612292036352000,
xm 16 16 [2,10] 6038508642566400,
xm 16 16 [1,11] 9436646822803200,
xp 16 16 [14] 3934458716348160000,
xm 17 16 [1,1,1,2,2] 218378160,
xm 17 16 [1,1,1,1,3] 159459300,
xp 17 16 [2,2,2,3] 140135767200,
xp 17 16 [1,2,3,3] 503767836000,
xp 17 16 [1,2,2,4] 542853511200,
xp 17 16 [1,1,3,4] 650918268000,
xp 17 16 [1,1,2,5] 728794946880,
xp 17 16 [1,1,1,6] 333210477600,
xm 17 16 [3,4,4] 99460441080000,
xm 17 16 [3,3,5] 104111895888000,
xm 17 16 [2,4,5] 225377677324800,
xm 17 16 [1,5,5] 151987425408000,
xm 17 16 [2,3,6] 243019605628800,
xm 17 16 [1,4,6] 313173481420800,
xm 17 16 [2,2,7] 145323720622080,
xm 17 16 [1,3,7] 346144259260800,
xm 17 16 [1,2,8] 424265608166400,
xm 17 16 [1,1,9] 316863510163200,
xp 17 16 [6,7] 83307357124992000,
xp 17 16 [5,8] 88075791707904000,
xp 17 16 [4,9] 98547648046848000,
xp 17 16 [3,10] 117826091903520000,
xp 17 16 [2,11] 155118621962304000,
xp 17 16 [1,12] 246510839326752000,
xm 17 16 [15] 114099302774096640000,
xp 18 16 [1,1,1,1,1,1] 675675,
xp 18 16 [1,1,2,2,2] 1376214840,
xp 18 16 [1,1,1,2,3] 3859455600,
xp 18 16 [1,1,1,1,4] 1597295700,
xm 18 16 [2,2,3,3] 1722279049920,
xm 18 16 [1,3,3,3] 1386753825600,
xm 18 16 [2,2,2,4] 1242961536960,
xm 18 16 [1,2,3,4] 9008808906240,
xm 18 16 [1,1,4,4] 2953607857200,
xm 18 16 [1,2,2,5] 5080794919200,
xm 18 16 [1,1,3,5] 6155107358400,
xm 18 16 [1,1,2,6] 7108273972800,
xm 18 16 [1,1,1,7] 3377056082400,
xp 18 16 [4,4,4] 334236697704000,
xp 18 16 [3,4,5] 2100379092739200,
xp 18 16 [2,5,5] 1191971191320000,
xp 18 16 [3,3,6] 1133270516851200,
xp 18 16 [2,4,6] 2456300199225600,
xp 18 16 [1,5,6] 3348571660761600,
xp 18 16 [2,3,7] 2711003611155840,
xp 18 16 [1,4,7] 3529624059561600,
xp 18 16 [2,2,8] 1655073008709120,
xp 18 16 [1,3,8] 3977904951820800,
xp 18 16 [1,2,9] 4957769485468800,
xp 18 16 [1,1,10] 3787826309467200,
xm 18 16 [7,7] 522065910971404800,
xm 18 16 [6,8] 1069460428311475200,
xm 18 16 [5,9] 1149467564044800000,
xm 18 16 [4,10] 1300366904604768000,
xm 18 16 [3,11] 1566998775313171200,
xm 18 16 [2,12] 2075492089608537600,
xm 18 16 [1,13] 3341213583150643200,
xp 17 17 [1,1,1,2,2] 25945920,
xp 17 17 [1,1,1,1,3] 21621600,
xm 17 17 [2,2,2,3] 28349006400,
xm 17 17 [1,2,3,3] 101745072000,
xm 17 17 [1,2,2,4] 110278808640,
xm 17 17 [1,1,3,4] 131502571200,
xm 17 17 [1,1,2,5] 149007418560,
xm 17 17 [1,1,1,6] 68497228800,
xp 17 17 [3,4,4] 21621023424000,
xp 17 17 [3,3,5] 22606680096000,
xp 17 17 [2,4,5] 49081377945600,
xp 17 17 [1,5,5] 32917730227200,
xp 17 17 [2,3,6] 52754282380800,
xp 17 17 [1,4,6] 67693943116800,
xp 17 17 [2,2,7] 31477901495040,
xp 17 17 [1,3,7] 74439190425600,
xp 17 17 [1,2,8] 91016211686400,
xp 17 17 [1,1,9] 67470635232000,
xm 17 17 [6,7] 18512746027776000,
xm 17 17 [5,8] 19541231918208000,
xm 17 17 [4,9] 21811172999616000,
xm 17 17 [3,10] 25972945270272000,
xm 17 17 [2,11] 34135248372825600,
xm 17 17 [1,12] 53754744601958400,
xp 17 17 [15] 25355400616465920000,
xm 18 17 [1,1,1,1,1,1] 270270,
xm 18 17 [1,1,2,2,2] 371891520,
xm 18 17 [1,1,1,2,3] 1156755600,
xm 18 17 [1,1,1,1,4] 529729200,
xp 18 17 [2,2,3,3] 730470312000,
xp 18 17 [1,3,3,3] 588879720000,
xp 18 17 [2,2,2,4] 529279470720,
xp 18 17 [1,2,3,4] 3836450217600,
xp 18 17 [1,1,4,4] 1257778922400,
xp 18 17 [1,2,2,5] 2180780521920,
xp 18 17 [1,1,3,5] 2633640609600,
xp 18 17 [1,1,2,6] 3072671521920,
xp 18 17 [1,1,1,7] 1464318535680,
xm 18 17 [4,4,4] 151347163968000,
xm 18 17 [3,4,5] 951078832704000,
xm 18 17 [2,5,5] 540485592192000,
xm 18 17 [3,3,6] 512444892960000,
xm 18 17 [2,4,6] 1112256963417600,
xm 18 17 [1,5,6] 1512521557747200,
xm 18 17 [2,3,7] 1223902257177600,
xm 18 17 [1,4,7] 1589651340076800,
xm 18 17 [2,2,8] 745217157484800,
xm 18 17 [1,3,8] 1784267188704000,
xm 18 17 [1,2,9] 2218904678390400,
xm 18 17 [1,1,10] 1686135135484800,
xp 18 17 [7,7] 240665698361088000,
xp 18 17 [6,8] 492644741516928000,
xp 18 17 [5,9] 528501499606080000,
xp 18 17 [4,10] 596222903884608000,
xp 18 17 [3,11] 716108092539840000,
xp 18 17 [2,12] 946374946380864000,
xp 18 17 [1,13] 1513876090446720000,
xp 18 18 [1,1,1,1,1,1] 45045,
xp 18 18 [1,1,2,2,2] 33153120,
xp 18 18 [1,1,1,2,3] 129729600,
xp 18 18 [1,1,1,1,4] 69369300,
xm 18 18 [2,2,3,3] 131513382000,
xm 18 18 [1,3,3,3] 105868620000,
xm 18 18 [2,2,2,4] 95723147520,
xm 18 18 [1,2,3,4] 692453361600,
xm 18 18 [1,1,4,4] 226816590000,
xm 18 18 [1,2,2,5] 397206089280,
xm 18 18 [1,1,3,5] 477167090400,
xm 18 18 [1,1,2,6] 563484841920,
xm 18 18 [1,1,1,7] 269818829280,
xp 18 18 [4,4,4] 29104408872000,
xp 18 18 [3,4,5] 182843193456000,
xp 18 18 [2,5,5] 104135573808000,
xp 18 18 [3,3,6] 98402432040000,
xp 18 18 [2,4,6] 214121099808000,
xp 18 18 [1,5,6] 289958648918400,
xp 18 18 [2,3,7] 235108435161600,
xp 18 18 [1,4,7] 304223782262400,
xp 18 18 [2,2,8] 143042840740800,
xp 18 18 [1,3,8] 340331335344000,
xp 18 18 [1,2,9] 422846366342400,
xp 18 18 [1,1,10] 319479853492800,
xm 18 18 [7,7] 47269946157033600,
xm 18 18 [6,8] 96686150232672000,
xm 18 18 [5,9] 103530050848224000,
xm 18 18 [4,10] 116535489950880000,
xm 18 18 [3,11] 139543402942944000,
xm 18 18 [2,12] 184255720954905600,
xm 18 18 [1,13] 292597899834240000]
/-- row 6 -/
def extD6 : PL := extD6_0 ++ extD6_1
def extD7_0 : PL := [
xp 13 13 [1,1,1,2] 69189120,
xm 13 13 [2,2,3] 8172964800,
xm 13 13 [1,3,3] 10100376000,
xm 13 13 [1,2,4] 22572950400,
xm 13 13 [1,1,5] 16735118400,
xp 13 13 [4,5] 2288430144000,
xp 13 13 [3,6] 2568646080000,
xp 13 13 [2,7] 3339239904000,
xp 13 13 [1,8] 5565399840000,
xm 13 13 [11] 1372731167808000,
xm 14 13 [1,1,2,2] 1024863840,
xm 14 13 [1,1,1,3] 843242400,
xp 14 13 [2,3,3] 112030776000,
xp 14 13 [2,2,4] 124929604800,
xp 14 13 [1,3,4] 308756448000,
xp 14 13 [1,2,5] 368950982400,
xp 14 13 [1,1,6] 286832145600,
xm 14 13 [5,5] 20595871296000,
xm 14 13 [4,6] 43153254144000,
xm 14 13 [3,7] 50088598560000,
xm 14 13 [2,8] 66784798080000,
xm 14 13 [1,9] 113534156736000,
xp 14 13 [12] 31572816859584000,
xm 15 13 [1,1,1,1,1] 5405400,
xp 15 13 [1,2,2,2] 3476753280,
xp 15 13 [1,1,2,3] 12834581760,
xp 15 13 [1,1,1,4] 5881075200,
xm 15 13 [3,3,3] 264926376000,
xm 15 13 [2,3,4] 1770030662400,
xm 15 13 [1,4,4] 1214917704000,
xm 15 13 [2,2,5] 1054312459200,
xm 15 13 [1,3,5] 2599521724800,
xm 15 13 [1,2,6] 3250504857600,
xm 15 13 [1,1,7] 2607175771200,
xp 15 13 [5,6] 401456030976000,
xp 15 13 [4,7] 434871781344000,
xp 15 13 [3,8] 517582185120000,
xp 15 13 [2,9] 703466539776000,
xp 15 13 [1,10] 1211031005184000,
xm 15 13 [13] 378873802315008000,
xp 16 13 [1,1,1,1,2] 81081000,
xm 16 13 [2,2,2,2] 3074591520,
xm 16 13 [1,2,2,3] 45119954880,
xm 16 13 [1,1,3,3] 27610783200,
xm 16 13 [1,1,2,4] 61470208800,
xm 16 13 [1,1,1,5] 29967537600,
xp 16 13 [3,3,4] 4337323848000,
xp 16 13 [2,4,4] 4823995176000,
xp 16 13 [2,3,5] 10308832934400,
xp 16 13 [1,4,5] 14070472416000,
xp 16 13 [2,2,6] 6418112500800,
xp 16 13 [1,3,6] 15752027491200,
xp 16 13 [1,2,7] 20343676953600,
xp 16 13 [1,1,8] 16640545521600,
xm 16 13 [6,6] 1348539192000000,
xm 16 13 [5,7] 2788779049056000,
xm 16 13 [4,8] 3097701550944000,
xm 16 13 [3,9] 3758871051936000,
xm 16 13 [2,10] 5184726490944000,
xm 16 13 [1,11] 8988120741600000,
xp 16 13 [14] 3157281685958400000,
xm 17 13 [1,1,1,2,2] 378378000,
xm 17 13 [1,1,1,1,3] 229729500,
xp 17 13 [2,2,2,3] 41682120480,
xp 17 13 [1,2,3,3] 151731740160,
xp 17 13 [1,2,2,4] 168531723360,
xp 17 13 [1,1,3,4] 204626822400,
xp 17 13 [1,1,2,5] 243156513600,
xp 17 13 [1,1,1,6] 122897174400,
xm 17 13 [3,4,4] 18400197816000,
xm 17 13 [3,3,5] 19641302366400,
xm 17 13 [2,4,5] 43638961766400,
xm 17 13 [1,5,5] 31550238720000,
xm 17 13 [2,3,6] 48750567465600,
xm 17 13 [1,4,6] 66035220451200,
xm 17 13 [2,2,7] 31319968680000,
xm 17 13 [1,3,7] 76369739846400,
xm 17 13 [1,2,8] 100999163865600,
xm 17 13 [1,1,9] 83536651598400,
xp 17 13 [6,7] 14528262228480000,
xp 17 13 [5,8] 15404684270976000,
xp 17 13 [4,9] 17447528498400000,
xp 17 13 [3,10] 21496913421984000,
xp 17 13 [2,11] 29991939737760000,
xp 17 13 [1,12] 52131100301280000,
xm 17 13 [15] 20522330958729600000,
xm 18 13 [1,1,1,1,1,1] 270270,
xp 18 13 [1,1,2,2,2] 745945200,
xp 18 13 [1,1,1,2,3] 1783782000,
xp 18 13 [1,1,1,1,4] 591891300,
xm 18 13 [2,2,3,3] 176419283040,
xm 18 13 [1,3,3,3] 141340399200,
xm 18 13 [2,2,2,4] 130352302080,
xm 18 13 [1,2,3,4] 940107168000,
xm 18 13 [1,1,4,4] 313232119200,
xm 18 13 [1,2,2,5] 556358362560,
xm 18 13 [1,1,3,5] 668777709600,
xm 18 13 [1,1,2,6] 829828359360,
xm 18 13 [1,1,1,7] 427809301920,
xp 18 13 [4,4,4] 21588951384000,
xp 18 13 [3,4,5] 138159429408000,
xp 18 13 [2,5,5] 81744437174400,
xp 18 13 [3,3,6] 77042647281600,
xp 18 13 [2,4,6] 170950402022400,
xp 18 13 [1,5,6] 244749160656000,
xp 18 13 [2,3,7] 197164602835200,
xp 18 13 [1,4,7] 264628146182400,
xp 18 13 [2,2,8] 129626724427200,
xp 18 13 [1,3,8] 313563189139200,
xp 18 13 [1,2,9] 422079923865600,
xp 18 13 [1,1,10] 350787151915200,
xm 18 13 [7,7] 32354152294464000,
xm 18 13 [6,8] 66357118507680000,
xm 18 13 [5,9] 71749134737280000,
xm 18 13 [4,10] 82531540387296000,
xm 18 13 [3,11] 102937635440640000,
xm 18 13 [2,12] 144888506354592000,
xm 18 13 [1,13] 251667380764800000,
xp 14 14 [1,1,2,2] 999844560,
xp 14 14 [1,1,1,3] 803088000,
xm 14 14 [2,3,3] 112030776000,
xm 14 14 [2,2,4] 126486360000,
xm 14 14 [1,3,4] 303567264000,
xm 14 14 [1,2,5] 364280716800,
xm 14 14 [1,1,6] 278269992000,
xp 14 14 [5,5] 20573581392000,
xp 14 14 [4,6] 43207740576000,
xp 14 14 [3,7] 49987409472000,
xp 14 14 [2,8] 67088365344000,
xp 14 14 [1,9] 111813942240000,
xm 14 14 [12] 31572816859584000,
xp 15 14 [1,1,1,1,1] 9909900,
xm 15 14 [1,2,2,2] 7242618240,
xm 15 14 [1,1,2,3] 25992252000,
xm 15 14 [1,1,1,4] 11567556000,
xp 15 14 [3,3,3] 560153880000,
xp 15 14 [2,3,4] 3743996256000,
xp 15 14 [1,4,4] 2507889384000,
xp 15 14 [2,2,5] 2231219390400,
xp 15 14 [1,3,5] 5366913552000,
xp 15 14 [1,2,6] 6712728422400,
xp 15 14 [1,1,7] 5250027182400,
xm 15 14 [5,6] 841488455808000,
xm 15 14 [4,7] 911612493792000,
xm 15 14 [3,8] 1085252968800000,
xm 15 14 [2,9] 1475944037568000,
xm 15 14 [1,10] 2483989732224000,
xp 15 14 [13] 789320421489600000,
xm 16 14 [1,1,1,1,2] 235855620,
xp 16 14 [2,2,2,2] 10242151920,
xp 16 14 [1,2,2,3] 147389505120,
xp 16 14 [1,1,3,3] 88077132000,
xp 16 14 [1,1,2,4] 194665442400,
xp 16 14 [1,1,1,5] 91762070400,
xm 16 14 [3,3,4] 14506178544000,
xm 16 14 [2,4,4] 16041929904000,
xm 16 14 [2,3,5] 34317111628800,
xm 16 14 [1,4,5] 45675197568000,
xm 16 14 [2,2,6] 21253600368000,
xm 16 14 [1,3,6] 51162759648000,
xm 16 14 [1,2,7] 65745923443200,
xm 16 14 [1,1,8] 52314758496000,
xp 16 14 [6,6] 4433751674352000,
xp 16 14 [5,7] 9170665856352000,
xp 16 14 [4,8] 10186907867136000,
xp 16 14 [3,9] 12371883844320000,
xp 16 14 [2,10] 16997439434976000,
xp 16 14 [1,11] 28794670448544000,
xm 16 14 [14] 10261165479364800000,
xp 17 14 [1,1,1,2,2] 1578376800,
xp 17 14 [1,1,1,1,3] 934233300,
xm 17 14 [2,2,2,3] 193858647840,
xm 17 14 [1,2,3,3] 696230964000,
xm 17 14 [1,2,2,4] 764533598400,
xm 17 14 [1,1,3,4] 913450824000,
xm 17 14 [1,1,2,5] 1071047577600,
xm 17 14 [1,1,1,6] 523394071200,
xp 17 14 [3,4,4] 86115373344000,
xp 17 14 [3,3,5] 91883583792000,
xp 17 14 [2,4,5] 202417094880000,
xp 17 14 [1,5,5] 143040505608000,
xp 17 14 [2,3,6] 226051752326400,
xp 17 14 [1,4,6] 299430187056000,
xp 17 14 [2,2,7] 143921239862400,
xp 17 14 [1,3,7] 346165015996800,
xp 17 14 [1,2,8] 453357470966400,
xp 17 14 [1,1,9] 365090229504000,
xm 17 14 [6,7] 66477588008832000,
xm 17 14 [5,8] 70498032853248000,
xm 17 14 [4,9] 79874618503680000,
xm 17 14 [3,10] 98420352174144000,
xm 17 14 [2,11] 136292594518080000,
xm 17 14 [1,12] 231762778831584000,
xp 17 14 [15] 92350489314283200000,
xp 18 14 [1,1,1,1,1,1] 1126125,
xm 18 14 [1,1,2,2,2] 4164320160,
xm 18 14 [1,1,1,2,3] 9865936080,
xm 18 14 [1,1,1,1,4] 3165762600,
xp 18 14 [2,2,3,3] 1078103014560,
xp 18 14 [1,3,3,3] 858531960000,
xp 18 14 [2,2,2,4] 787627320480,
xp 18 14 [1,2,3,4] 5638678531200,
xp 18 14 [1,1,4,4] 1840260708000,
xp 18 14 [1,2,2,5] 3282121814400,
xp 18 14 [1,1,3,5] 3914340487200,
xp 18 14 [1,1,2,6] 4767433070400,
xp 18 14 [1,1,1,7] 2384819236800,
xm 18 14 [4,4,4] 132434678376000,
xm 18 14 [3,4,5] 845629424640000,
xm 18 14 [2,5,5] 494520802776000,
xm 18 14 [3,3,6] 470566232136000,
xm 18 14 [2,4,6] 1034340068361600,
xm 18 14 [1,5,6] 1451366764848000,
xm 18 14 [2,3,7] 1190331609667200,
xm 18 14 [1,4,7] 1569495165638400,
xm 18 14 [2,2,8] 773312307768000,
xm 18 14 [1,3,8] 1855504306656000,
xm 18 14 [1,2,9] 2464470357148800,
xm 18 14 [1,1,10] 1999740919176000,
xp 18 14 [7,7] 192796480068192000,
xp 18 14 [6,8] 395452824871104000,
xp 18 14 [5,9] 427676489944704000,
xp 18 14 [4,10] 492150129254784000,
xp 18 14 [3,11] 613022518652544000,
xp 18 14 [2,12] 854230995281664000,
xp 18 14 [1,13] 1454637460820544000,
xm 15 15 [1,1,1,1,1] 4504500,
xp 15 15 [1,2,2,2] 3795517440,
xp 15 15 [1,1,2,3] 13260218400,
xp 15 15 [1,1,1,4] 5729724000,
xm 15 15 [3,3,3] 301621320000,
xm 15 15 [2,3,4] 2015997984000,
xm 15 15 [1,4,4] 1318268952000,
xm 15 15 [2,2,5] 1201425825600,
xm 15 15 [1,3,5] 2821618800000,
xm 15 15 [1,2,6] 3527607283200,
xm 15 15 [1,1,7] 2689943256000,
xp 15 15 [5,6] 453109168512000,
xp 15 15 [4,7] 490868265888000,
xp 15 15 [3,8] 584366983200000,
xp 15 15 [2,9] 794739097152000,
xp 15 15 [1,10] 1307363016960000,
xm 15 15 [13] 425018688494400000,
xp 16 15 [1,1,1,1,2] 227567340,
xm 16 15 [2,2,2,2] 11386552320,
xm 16 15 [1,2,2,3] 161012966400,
xm 16 15 [1,1,3,3] 94470948000,
xm 16 15 [1,1,2,4] 207178171200,
xm 16 15 [1,1,1,5] 94767472800,
xp 16 15 [3,3,4] 16414037640000,
xp 16 15 [2,4,4] 18066792744000,
xp 16 15 [2,3,5] 38623096512000,
xp 16 15 [1,4,5] 50345463168000,
xp 16 15 [2,2,6] 23798505931200,
xp 16 15 [1,3,6] 56381781456000,
xp 16 15 [1,2,7] 72016273929600,
xp 16 15 [1,1,8] 55932268392000,
xm 16 15 [6,6] 4984200853632000,
xm 16 15 [5,7] 10308233583648000,
xm 16 15 [4,8] 11453592870720000,
xm 16 15 [3,9] 13907934200160000,
xm 16 15 [2,10] 19022131896768000,
xm 16 15 [1,11] 31572816859584000,
xp 16 15 [14] 11475504589348800000,
xm 17 15 [1,1,1,2,2] 2449727280,
xm 17 15 [1,1,1,1,3] 1427025600,
xp 17 15 [2,2,2,3] 337432249440,
xp 17 15 [1,2,3,3] 1199461348800,
xp 17 15 [1,2,2,4] 1305218772000,
xp 17 15 [1,1,3,4] 1542577608000,
xp 17 15 [1,1,2,5] 1784625242400,
xp 17 15 [1,1,1,6] 848626178400,
xm 17 15 [3,4,4] 153047846952000,
xm 17 15 [3,3,5] 163021458600000,
xm 17 15 [2,4,5] 356804399952000,
xm 17 15 [1,5,5] 247572725400000,
xm 17 15 [2,3,6] 397775861683200,
xm 17 15 [1,4,6] 518282724960000,
xm 17 15 [2,2,7] 251097997550400,
xm 17 15 [1,3,7] 598066428960000,
xm 17 15 [1,2,8] 775705429699200,
xm 17 15 [1,1,9] 611359172424000,
xp 17 15 [6,7] 116788888183968000,
xp 17 15 [5,8] 123862425759072000,
xp 17 15 [4,9] 140364949364640000,
xp 17 15 [3,10] 172752540760800000,
xp 17 15 [2,11] 237482492030784000,
xp 17 15 [1,12] 396719307496512000,
xm 17 15 [15] 160657064250883200000,
xm 18 15 [1,1,1,1,1,1] 1801800,
xp 18 15 [1,1,2,2,2] 9197828640,
xp 18 15 [1,1,1,2,3] 21688626960,
xp 18 15 [1,1,1,1,4] 6825218400,
xm 18 15 [2,2,3,3] 2623883090400,
xm 18 15 [1,3,3,3] 2080214136000,
xm 18 15 [2,2,2,4] 1900445976000,
xm 18 15 [1,2,3,4] 13544845142400,
xm 18 15 [1,1,4,4] 4363130772000,
xm 18 15 [1,2,2,5] 7776965196000,
xm 18 15 [1,1,3,5] 9234996170400,
xm 18 15 [1,1,2,6] 11063275423200,
xm 18 15 [1,1,1,7] 5410567562400,
xp 18 15 [4,4,4] 328318590600000,
xp 18 15 [3,4,5] 2090881801008000,
xp 18 15 [2,5,5] 1211274248184000,
xp 18 15 [3,3,6] 1159761218616000,
xp 18 15 [2,4,6] 2532058440912000,
xp 18 15 [1,5,6] 3501706768560000,
xp 18 15 [2,3,7] 2904419495577600,
xp 18 15 [1,4,7] 3784914269136000,
xp 18 15 [2,2,8] 1866802068331200,
xp 18 15 [1,3,8] 4457885271840000,
xp 18 15 [1,2,9] 5850904851792000,
xp 18 15 [1,1,10] 4662784742616000,
xm 18 15 [7,7] 469760930454816000,
xm 18 15 [6,8] 963574405938144000,
xm 18 15 [5,9] 1042276951235520000,
xm 18 15 [4,10] 1199221732668960000,
xm 18 15 [3,11] 1490099682655584000,
xm 18 15 [2,12] 2057724020544192000,
xm 18 15 [1,13] 3451961309981184000,
xm 16 16 [1,1,1,1,2] 72792720,
xp 16 16 [2,2,2,2] 4221771840,
xp 16 16 [1,2,2,3] 58674844800,
xp 16 16 [1,1,3,3] 33976800000,
xp 16 16 [1,1,2,4] 73945872000,
xp 16 16 [1,1,1,5] 32951318400,
xm 16 16 [3,3,4] 6241959360000,
xm 16 16 [2,4,4] 6853732704000,
xm 16 16 [2,3,5] 14606609472000,
xm 16 16 [1,4,5] 18730123776000,
xm 16 16 [2,2,6] 8966909952000,
xm 16 16 [1,3,6] 20953924992000,
xm 16 16 [1,2,7] 26592492326400,
xm 16 16 [1,1,8] 20237817600000,
xp 16 16 [6,6] 1899296429184000,
xp 16 16 [5,7] 3925638452736000,
xp 16 16 [4,8] 4365452931840000,
xp 16 16 [3,9] 5292967680000000,
xp 16 16 [2,10] 7210609870464000,
xp 16 16 [1,11] 11756210514048000,
xm 16 16 [14] 4371620795942400000,
xp 17 16 [1,1,1,2,2] 1676755080,
xp 17 16 [1,1,1,1,3] 969368400,
xm 17 16 [2,2,2,3] 260459971200,
xm 17 16 [1,2,3,3] 917049276000,
xm 17 16 [1,2,2,4] 992107116000,
xm 17 16 [1,1,3,4] 1163242080000,
xm 17 16 [1,1,2,5] 1329468940800,
xm 17 16 [1,1,1,6] 618615597600,
xp 17 16 [3,4,4] 121656094560000,
xp 17 16 [3,3,5] 129210681600000,
xp 17 16 [2,4,5] 281803826304000,
xp 17 16 [1,5,5] 192573625608000,
xp 17 16 [2,3,6] 313203578688000,
xp 17 16 [1,4,6] 403117867152000,
xp 17 16 [2,2,7] 196347306355200,
xp 17 16 [1,3,7] 463682130912000,
xp 17 16 [1,2,8] 596357890128000,
xp 17 16 [1,1,9] 461877592176000,
xm 17 16 [6,7] 92563730138880000,
xm 17 16 [5,8] 98173653177600000,
xm 17 16 [4,9] 111263473601280000,
xm 17 16 [3,10] 136619435272320000,
xm 17 16 [2,11] 186691438821888000,
xm 17 16 [1,12] 307227794825952000,
xp 17 16 [15] 126777003082329600000,
xp 18 16 [1,1,1,1,1,1] 1351350,
xm 18 16 [1,1,2,2,2] 10058522760,
xm 18 16 [1,1,1,2,3] 23675960880,
xm 18 16 [1,1,1,1,4] 7394587200,
xp 18 16 [2,2,3,3] 3177791416800,
xp 18 16 [1,3,3,3] 2506792860000,
xp 18 16 [2,2,2,4] 2288698869600,
xp 18 16 [1,2,3,4] 16245852480000,
xp 18 16 [1,1,4,4] 5190373188000,
xp 18 16 [1,2,2,5] 9234606981600,
xp 18 16 [1,1,3,5] 10927599883200,
xp 18 16 [1,1,2,6] 12916462759200,
xp 18 16 [1,1,1,7] 6209701898400,
xm 18 16 [4,4,4] 408661999200000,
xm 18 16 [3,4,5] 2595583763136000,
xm 18 16 [2,5,5] 1493853267816000,
xm 18 16 [3,3,6] 1434147990912000,
xm 18 16 [2,4,6] 3119087711376000,
xm 18 16 [1,5,6] 4265584255296000,
xm 18 16 [2,3,7] 3563698576838400,
xm 18 16 [1,4,7] 4605430637808000,
xm 18 16 [2,2,8] 2270834918352000,
xm 18 16 [1,3,8] 5399095573872000,
xm 18 16 [1,2,9] 7019436440016000,
xm 18 16 [1,1,10] 5515007674176000,
xp 18 16 [7,7] 580073234412672000,
xp 18 16 [6,8] 1189847676745728000,
xp 18 16 [5,9] 1287194007939840000,
xp 18 16 [4,10] 1480038148068480000,
xp 18 16 [3,11] 1833315158683008000,
xp 18 16 [2,12] 2513664358549344000,
xp 18 16 [1,13] 4165587926948448000,
xm 17 17 [1,1,1,2,2] 427026600]
def extD7_1 : PL := [
xm 17 17 [1,1,1,1,3] 246846600,
xp 17 17 [2,2,2,3] 75233901600,
xp 17 17 [1,2,3,3] 262146456000,
xp 17 17 [1,2,2,4] 282927284640,
xp 17 17 [1,1,3,4] 329556427200,
xp 17 17 [1,1,2,5] 372803951520,
xp 17 17 [1,1,1,6] 170529559200,
xm 17 17 [3,4,4] 36357585264000,
xm 17 17 [3,3,5] 38467420992000,
xm 17 17 [2,4,5] 83854618848000,
xm 17 17 [1,5,5] 56536855502400,
xm 17 17 [2,3,6] 92813745024000,
xm 17 17 [1,4,6] 118320919516800,
xm 17 17 [2,2,7] 57902419935360,
xm 17 17 [1,3,7] 135519172588800,
xm 17 17 [1,2,8] 173134529568000,
xm 17 17 [1,1,9] 132169813776000,
xp 17 17 [6,7] 27769119041664000,
xp 17 17 [5,8] 29452095953280000,
xp 17 17 [4,9] 33379042080384000,
xp 17 17 [3,10] 40855094280000000,
xp 17 17 [2,11] 55595612296224000,
xp 17 17 [1,12] 90265873842144000,
xm 17 17 [15] 38033100924698880000,
xm 18 17 [1,1,1,1,1,1] 450450,
xp 18 17 [1,1,2,2,2] 5450033160,
xp 18 17 [1,1,1,2,3] 12830875200,
xp 18 17 [1,1,1,1,4] 4016212200,
xm 18 17 [2,2,3,3] 1914947892000,
xm 18 17 [1,3,3,3] 1501156800000,
xm 18 17 [2,2,2,4] 1375419165120,
xm 18 17 [1,2,3,4] 9714282177600,
xm 18 17 [1,1,4,4] 3087110426400,
xm 18 17 [1,2,2,5] 5486044243680,
xm 18 17 [1,1,3,5] 6466566506400,
xm 18 17 [1,1,2,6] 7566375136320,
xm 18 17 [1,1,1,7] 3589682896800,
xp 18 17 [4,4,4] 254503096848000,
xp 18 17 [3,4,5] 1612253522880000,
xp 18 17 [2,5,5] 924302136139200,
xp 18 17 [3,3,6] 887210356032000,
xp 18 17 [2,4,6] 1927059781046400,
xp 18 17 [1,5,6] 2610771875712000,
xp 18 17 [2,3,7] 2192160402432000,
xp 18 17 [1,4,7] 2814051672432000,
xp 18 17 [2,2,8] 1387939887734400,
xp 18 17 [1,3,8] 3282472825632000,
xp 18 17 [1,2,9] 4237748410896000,
xp 18 17 [1,1,10] 3290196926016000,
xm 18 17 [7,7] 360998547541632000,
xm 18 17 [6,8] 740509841111040000,
xm 18 17 [5,9] 801097009929216000,
xm 18 17 [4,10] 920187459487296000,
xm 18 17 [3,11] 1135935041361120000,
xm 18 17 [2,12] 1549496704339584000,
xm 18 17 [1,13] 2539992638383200000,
xp 18 18 [1,1,1,1,1,1] 45045,
xm 18 18 [1,1,2,2,2] 1170964080,
xm 18 18 [1,1,1,2,3] 2761387200,
xm 18 18 [1,1,1,1,4] 872972100,
xp 18 18 [2,2,3,3] 459337554000,
xp 18 18 [1,3,3,3] 357367140000,
xp 18 18 [2,2,2,4] 329881144320,
xp 18 18 [1,2,3,4] 2314623729600,
xp 18 18 [1,1,4,4] 732826458000,
xp 18 18 [1,2,2,5] 1302600761280,
xp 18 18 [1,1,3,5] 1528350314400,
xp 18 18 [1,1,2,6] 1775583089280,
xp 18 18 [1,1,1,7] 833517004320,
xm 18 18 [4,4,4] 63316271592000,
xm 18 18 [3,4,5] 400068532080000,
xm 18 18 [2,5,5] 228940632748800,
xm 18 18 [3,3,6] 219290075928000,
xm 18 18 [2,4,6] 476654851411200,
xm 18 18 [1,5,6] 640256231260800,
xm 18 18 [2,3,7] 539692779225600,
xm 18 18 [1,4,7] 688644932976000,
xm 18 18 [2,2,8] 340225346260800,
xm 18 18 [1,3,8] 799280930448000,
xm 18 18 [1,2,9] 1026782800243200,
xm 18 18 [1,1,10] 788985200203200,
xp 18 18 [7,7] 90242624481609600,
xp 18 18 [6,8] 185143642748064000,
xp 18 18 [5,9] 200249243210016000,
xp 18 18 [4,10] 229756479432480000,
xp 18 18 [3,11] 282624228510624000,
xp 18 18 [2,12] 384216894398937600,
xp 18 18 [1,13] 623360743125120000]
/-- row 7 -/
def extD7 : PL := extD7_0 ++ extD7_1
def extD8_0 : PL := [
xp 15 15 [1,1,1,1,1] 900900,
xm 15 15 [1,2,2,2] 574516800,
xm 15 15 [1,1,2,3] 2122005600,
xm 15 15 [1,1,1,4] 972972000,
xp 15 15 [3,3,3] 43088760000,
xp 15 15 [2,3,4] 287999712000,
xp 15 15 [1,4,4] 198270072000,
xp 15 15 [2,2,5] 171632260800,
xp 15 15 [1,3,5] 424215792000,
xp 15 15 [1,2,6] 530853523200,
xp 15 15 [1,1,7] 426680654400,
xm 15 15 [5,6] 64729881216000,
xm 15 15 [4,7] 70124037984000,
xm 15 15 [3,8] 83480997600000,
xm 15 15 [2,9] 113534156736000,
xm 15 15 [1,10] 196104452544000,
xp 15 15 [13] 60716955499200000,
xm 16 15 [1,1,1,1,2] 48108060,
xp 16 15 [2,2,2,2] 1723550400,
xp 16 15 [1,2,2,3] 25436268000,
xp 16 15 [1,1,3,3] 15660216000,
xp 16 15 [1,1,2,4] 34897262400,
xp 16 15 [1,1,1,5] 17124307200,
xm 16 15 [3,3,4] 2344862520000,
xm 16 15 [2,4,4] 2610808200000,
xm 16 15 [2,3,5] 5580967392000,
xm 16 15 [1,4,5] 7682586912000,
xm 16 15 [2,2,6] 3480515438400,
xm 16 15 [1,3,6] 8604964368000,
xm 16 15 [1,2,7] 11130799680000,
xm 16 15 [1,1,8] 9182909736000,
xp 16 15 [6,6] 712028693376000,
xp 16 15 [5,7] 1472604797664000,
xp 16 15 [4,8] 1636227552960000,
xp 16 15 [3,9] 1986847742880000,
xp 16 15 [2,10] 2745462335616000,
xp 16 15 [1,11] 4804559087328000,
xm 16 15 [14] 1639357798478400000,
xp 17 15 [1,1,1,2,2] 527567040,
xp 17 15 [1,1,1,1,3] 324324000,
xm 17 15 [2,2,2,3] 52484889600,
xm 17 15 [1,2,3,3] 193278571200,
xm 17 15 [1,2,2,4] 214999012800,
xm 17 15 [1,1,3,4] 264370392000,
xm 17 15 [1,1,2,5] 314724009600,
xm 17 15 [1,1,1,6] 161513352000,
xp 17 15 [3,4,4] 21923653752000,
xp 17 15 [3,3,5] 23415544152000,
xp 17 15 [2,4,5] 52116272208000,
xp 17 15 [1,5,5] 38235853656000,
xp 17 15 [2,3,6] 58270903891200,
xp 17 15 [1,4,6] 80048352384000,
xp 17 15 [2,2,7] 37540762459200,
xp 17 15 [1,3,7] 92668188412800,
xp 17 15 [1,2,8] 122884028467200,
xp 17 15 [1,1,9] 103238167032000,
xm 17 15 [6,7] 16684126883424000,
xm 17 15 [5,8] 17694632251296000,
xm 17 15 [4,9] 20052135623520000,
xm 17 15 [3,10] 24734964237984000,
xm 17 15 [2,11] 34612435874016000,
xm 17 15 [1,12] 61086536967456000,
xp 17 15 [15] 22951009178697600000,
xp 18 15 [1,1,1,1,1,1] 900900,
xm 18 15 [1,1,2,2,2] 1991349360,
xm 18 15 [1,1,1,2,3] 4873508640,
xm 18 15 [1,1,1,1,4] 1661259600,
xp 18 15 [2,2,3,3] 412957116000,
xp 18 15 [1,3,3,3] 336648312000,
xp 18 15 [2,2,2,4] 305726335200,
xp 18 15 [1,2,3,4] 2244340612800,
xp 18 15 [1,1,4,4] 764107344000,
xp 18 15 [1,2,2,5] 1332193262400,
xp 18 15 [1,1,3,5] 1632776745600,
xp 18 15 [1,1,2,6] 2032733102400,
xp 18 15 [1,1,1,7] 1074550276800,
xm 18 15 [4,4,4] 47002115160000,
xm 18 15 [3,4,5] 301033644912000,
xm 18 15 [2,5,5] 178701875352000,
xm 18 15 [3,3,6] 168065345448000,
xm 18 15 [2,4,6] 373850869392000,
xm 18 15 [1,5,6] 546199237584000,
xm 18 15 [2,3,7] 431789406048000,
xm 18 15 [1,4,7] 590902760448000,
xm 18 15 [2,2,8] 285004125806400,
xm 18 15 [1,3,8] 701240379840000,
xm 18 15 [1,2,9] 947787592752000,
xm 18 15 [1,1,10] 805777140168000,
xp 18 15 [7,7] 67108704350688000,
xp 18 15 [6,8] 137653486562592000,
xp 18 15 [5,9] 148896707319360000,
xp 18 15 [4,10] 171410773453920000,
xp 18 15 [3,11] 214146062178048000,
xp 18 15 [2,12] 302687222501664000,
xp 18 15 [1,13] 536737886612928000,
xp 16 16 [1,1,1,1,2] 45945900,
xm 16 16 [2,2,2,2] 1752739560,
xm 16 16 [1,2,2,3] 25241673600,
xm 16 16 [1,1,3,3] 15266394000,
xm 16 16 [1,1,2,4] 34183749600,
xm 16 16 [1,1,1,5] 16540524000,
xp 16 16 [3,3,4] 2340734760000,
xp 16 16 [2,4,4] 2622365928000,
xp 16 16 [2,3,5] 5588397360000,
xp 16 16 [1,4,5] 7595903952000,
xp 16 16 [2,2,6] 3503866766400,
xp 16 16 [1,3,6] 8499883392000,
xp 16 16 [1,2,7] 11029610592000,
xp 16 16 [1,1,8] 8980531560000,
xm 16 16 [6,6] 712236160944000,
xm 16 16 [5,7] 1472114419776000,
xm 16 16 [4,8] 1637044849440000,
xm 16 16 [3,9] 1984862880000000,
xm 16 16 [2,10] 2753004814560000,
xm 16 16 [1,11] 4751761734720000,
xp 16 16 [14] 1639357798478400000,
xm 17 16 [1,1,1,2,2] 1051273080,
xm 17 16 [1,1,1,1,3] 631273500,
xp 17 16 [2,2,2,3] 110779812000,
xp 17 16 [1,2,3,3] 400030488000,
xp 17 16 [1,2,2,4] 445037392800,
xp 17 16 [1,1,3,4] 536431896000,
xp 17 16 [1,1,2,5] 638658820800,
xp 17 16 [1,1,1,6] 321080760000,
xm 17 16 [3,4,4] 45882116280000,
xm 17 16 [3,3,5] 49008599640000,
xm 17 16 [2,4,5] 109109080080000,
xm 17 16 [1,5,5] 78649926264000,
xm 17 16 [2,3,6] 122010688800000,
xm 17 16 [1,4,6] 164657997504000,
xm 17 16 [2,2,7] 78639099739200,
xm 17 16 [1,3,7] 190640241792000,
xm 17 16 [1,2,8] 252871530912000,
xm 17 16 [1,1,9] 208576007640000,
xp 17 16 [6,7] 34711398802080000,
xp 17 16 [5,8] 36815119941600000,
xp 17 16 [4,9] 41723802600480000,
xp 17 16 [3,10] 51477418792800000,
xp 17 16 [2,11] 72068386309920000,
xp 17 16 [1,12] 125076928328352000,
xm 17 16 [15] 47541376155873600000,
xm 18 16 [1,1,1,1,1,1] 2477475,
xp 18 16 [1,1,2,2,2] 6291422280,
xp 18 16 [1,1,1,2,3] 15065622000,
xp 18 16 [1,1,1,1,4] 4986481500,
xm 18 16 [2,2,3,3] 1365024117600,
xm 18 16 [1,3,3,3] 1094315508000,
xm 18 16 [2,2,2,4] 1006136445600,
xm 18 16 [1,2,3,4] 7266043699200,
xm 18 16 [1,1,4,4] 2419024608000,
xm 18 16 [1,2,2,5] 4297033540800,
xm 18 16 [1,1,3,5] 5171021856000,
xm 18 16 [1,1,2,6] 6412274668800,
xm 18 16 [1,1,1,7] 3308558853600,
xp 18 16 [4,4,4] 154031492160000,
xp 18 16 [3,4,5] 987021951552000,
xp 18 16 [2,5,5] 584262963648000,
xp 18 16 [3,3,6] 551290888512000,
xp 18 16 [2,4,6] 1222201785168000,
xp 18 16 [1,5,6] 1752551131968000,
xp 18 16 [2,3,7] 1412447884848000,
xp 18 16 [1,4,7] 1896069455280000,
xp 18 16 [2,2,8] 929553319094400,
xp 18 16 [1,3,8] 2251103046192000,
xp 18 16 [1,2,9] 3033446480064000,
xp 18 16 [1,1,10] 2526134987376000,
xm 18 16 [7,7] 217527462904752000,
xm 18 16 [6,8] 446192878779648000,
xm 18 16 [5,9] 482697752977440000,
xm 18 16 [4,10] 555749697222720000,
xm 18 16 [3,11] 694700023137120000,
xm 18 16 [2,12] 979602080288832000,
xm 18 16 [1,13] 1706146449527520000,
xp 17 17 [1,1,1,2,2] 524787120,
xp 17 17 [1,1,1,1,3] 307850400,
xm 17 17 [2,2,2,3] 59082566400,
xm 17 17 [1,2,3,3] 209327976000,
xm 17 17 [1,2,2,4] 232812740160,
xm 17 17 [1,1,3,4] 275199724800,
xm 17 17 [1,1,2,5] 327541294080,
xm 17 17 [1,1,1,6] 161253892800,
xp 17 17 [3,4,4] 24470462016000,
xp 17 17 [3,3,5] 26137919808000,
xp 17 17 [2,4,5] 58191509376000,
xp 17 17 [1,5,5] 41208088521600,
xp 17 17 [2,3,6] 65072367360000,
xp 17 17 [1,4,6] 86266551571200,
xp 17 17 [2,2,7] 41940853194240,
xp 17 17 [1,3,7] 99880375795200,
xp 17 17 [1,2,8] 132456516192000,
xp 17 17 [1,1,9] 107226703584000,
xm 17 17 [6,7] 18512746027776000,
xm 17 17 [5,8] 19634730635520000,
xm 17 17 [4,9] 22252694720256000,
xm 17 17 [3,10] 27454623356160000,
xm 17 17 [2,11] 38436472698624000,
xm 17 17 [1,12] 65574311939136000,
xp 17 17 [15] 25355400616465920000,
xp 18 17 [1,1,1,1,1,1] 2252250,
xm 18 17 [1,1,2,2,2] 6620842800,
xm 18 17 [1,1,1,2,3] 15572185200,
xm 18 17 [1,1,1,1,4] 5019814800,
xp 18 17 [2,2,3,3] 1514222424000,
xp 18 17 [1,3,3,3] 1197450540000,
xp 18 17 [2,2,2,4] 1112016185280,
xp 18 17 [1,2,3,4] 7917916406400,
xp 18 17 [1,1,4,4] 2585532549600,
xp 18 17 [1,2,2,5] 4661275338720,
xp 18 17 [1,1,3,5] 5525313393600,
xp 18 17 [1,1,2,6] 6818042911680,
xp 18 17 [1,1,1,7] 3441272234400,
xm 18 17 [4,4,4] 171293234112000,
xm 18 17 [3,4,5] 1097356740480000,
xm 18 17 [2,5,5] 647347849948800,
xm 18 17 [3,3,6] 612878954688000,
xm 18 17 [2,4,6] 1354412829369600,
xm 18 17 [1,5,6] 1909531495872000,
xm 18 17 [2,3,7] 1564990435008000,
xm 18 17 [1,4,7] 2066061933936000,
xm 18 17 [2,2,8] 1026482346489600,
xm 18 17 [1,3,8] 2452671709488000,
xm 18 17 [1,2,9] 3292490545344000,
xm 18 17 [1,1,10] 2690988876576000,
xp 18 17 [7,7] 240665698361088000,
xp 18 17 [6,8] 493673227407360000,
xp 18 17 [5,9] 534064673286144000,
xp 18 17 [4,10] 614983563177984000,
xp 18 17 [3,11] 768729453972480000,
xp 18 17 [2,12] 1080761807885760000,
xp 18 17 [1,13] 1851867142725600000,
xm 18 18 [1,1,1,1,1,1] 675675,
xp 18 18 [1,1,2,2,2] 2319163704,
xp 18 18 [1,1,1,2,3] 5377291920,
xp 18 18 [1,1,1,1,4] 1694592900,
xm 18 18 [2,2,3,3] 561833204400,
xm 18 18 [1,3,3,3] 439421112000,
xm 18 18 [2,2,2,4] 411857278560,
xm 18 18 [1,2,3,4] 2894774500800,
xm 18 18 [1,1,4,4] 930339774000,
xm 18 18 [1,2,2,5] 1695486854880,
xm 18 18 [1,1,3,5] 1985647154400,
xm 18 18 [1,1,2,6] 2437009454880,
xm 18 18 [1,1,1,7] 1206398793600,
xp 18 18 [4,4,4] 64290973320000,
xp 18 18 [3,4,5] 411292737072000,
xp 18 18 [2,5,5] 241759556539200,
xp 18 18 [3,3,6] 229564660248000,
xp 18 18 [2,4,6] 506213740771200,
xp 18 18 [1,5,6] 702828449769600,
xp 18 18 [2,3,7] 584195740128000,
xp 18 18 [1,4,7] 760587001574400,
xp 18 18 [2,2,8] 382026558513600,
xp 18 18 [1,3,8] 902240827488000,
xp 18 18 [1,2,9] 1206201172176000,
xp 18 18 [1,1,10] 969837084216000,
xm 18 18 [7,7] 90242624481609600,
xm 18 18 [6,8] 185143642748064000,
xm 18 18 [5,9] 200249243210016000,
xm 18 18 [4,10] 230671633544352000,
xm 18 18 [3,11] 288115153181856000,
xm 18 18 [2,12] 403889187980678400,
xm 18 18 [1,13] 682053800107680000]
/-- row 8 -/
def extD8 : PL := extD8_0
def extD9_0 : PL := [
xm 17 17 [1,1,1,2,2] 75212280,
xm 17 17 [1,1,1,1,3] 46203300,
xp 17 17 [2,2,2,3] 7385320800,
xp 17 17 [1,2,3,3] 27243216000,
xp 17 17 [1,2,2,4] 30317807520,
xp 17 17 [1,1,3,4] 37318881600,
xp 17 17 [1,1,2,5] 44445360960,
xp 17 17 [1,1,1,6] 22832409600,
xm 17 17 [3,4,4] 3058807752000,
xm 17 17 [3,3,5] 3267239976000,
xm 17 17 [2,4,5] 7273938672000,
xm 17 17 [1,5,5] 5348833963200,
xm 17 17 [2,3,6] 8134045920000,
xm 17 17 [1,4,6] 11198777990400,
xm 17 17 [2,2,7] 5242606649280,
xm 17 17 [1,3,7] 12965695142400,
xm 17 17 [1,2,8] 17202144960000,
xm 17 17 [1,1,9] 14478472008000,
xp 17 17 [6,7] 2314093253472000,
xp 17 17 [5,8] 2454341329440000,
xp 17 17 [4,9] 2781586840032000,
xp 17 17 [3,10] 3431827919520000,
xp 17 17 [2,11] 4804559087328000,
xp 17 17 [1,12] 8500373769888000,
xm 17 17 [15] 3169425077058240000,
xm 18 17 [1,1,1,1,1,1] 450450,
xp 18 17 [1,1,2,2,2] 964168920,
xp 18 17 [1,1,1,2,3] 2367565200,
xp 18 17 [1,1,1,1,4] 809909100,
xm 18 17 [2,2,3,3] 192509460000,
xm 18 17 [1,3,3,3] 157760460000,
xm 18 17 [2,2,2,4] 142650668160,
xm 18 17 [1,2,3,4] 1052496244800,
xm 18 17 [1,1,4,4] 360367207200,
xm 18 17 [1,2,2,5] 625348563840,
xm 18 17 [1,1,3,5] 770204635200,
xm 18 17 [1,1,2,6] 959817418560,
xm 18 17 [1,1,1,7] 510161652000,
xp 18 17 [4,4,4] 21411654264000,
xp 18 17 [3,4,5] 137169592560000,
xp 18 17 [2,5,5] 81511949937600,
xp 18 17 [3,3,6] 76609869336000,
xp 18 17 [2,4,6] 170547980803200,
xp 18 17 [1,5,6] 250828289712000,
xp 18 17 [2,3,7] 197065748880000,
xp 18 17 [1,4,7] 271405998864000,
xp 18 17 [2,2,8] 130245534619200,
xp 18 17 [1,3,8] 322236650736000,
xp 18 17 [1,2,9] 436074374736000,
xp 18 17 [1,1,10] 373143194424000,
xm 18 17 [7,7] 30083212295136000,
xm 18 17 [6,8] 61709153425920000,
xm 18 17 [5,9] 66758084160768000,
xm 18 17 [4,10] 76872945397248000,
xm 18 17 [3,11] 96091181746560000,
xm 18 17 [2,12] 136005980318208000,
xm 18 17 [1,13] 242867821996800000,
xp 18 18 [1,1,1,1,1,1] 425425,
xm 18 18 [1,1,2,2,2] 951999048,
xm 18 18 [1,1,1,2,3] 2305171440,
xm 18 18 [1,1,1,1,4] 781080300,
xp 18 18 [2,2,3,3] 193022902800,
xp 18 18 [1,3,3,3] 156048984000,
xp 18 18 [2,2,2,4] 143772239520,
xp 18 18 [1,2,3,4] 1044492321600,
xp 18 18 [1,1,4,4] 354173274000,
xp 18 18 [1,2,2,5] 621983849760,
xp 18 18 [1,1,3,5] 756152560800,
xp 18 18 [1,1,2,6] 944574190560,
xp 18 18 [1,1,1,7] 496950854400,
xm 18 18 [4,4,4] 21430324440000,
xm 18 18 [3,4,5] 137097579024000,
xm 18 18 [2,5,5] 81641574302400,
xm 18 18 [3,3,6] 76521553416000,
xm 18 18 [2,4,6] 170953695158400,
xm 18 18 [1,5,6] 248660567971200,
xm 18 18 [2,3,7] 197295370272000,
xm 18 18 [1,4,7] 269112120076800,
xm 18 18 [2,2,8] 130782615163200,
xm 18 18 [1,3,8] 319298275296000,
xm 18 18 [1,2,9] 433030918320000,
xm 18 18 [1,1,10] 366857795304000,
xp 18 18 [7,7] 30080874827203200,
xp 18 18 [6,8] 61714547582688000,
xp 18 18 [5,9] 66749747736672000,
xp 18 18 [4,10] 76890544514784000,
xp 18 18 [3,11] 96038384393952000,
xp 18 18 [2,12] 136248848140204800,
xp 18 18 [1,13] 240843923480160000]
/-- row 9 -/
def extD9 : PL := extD9_0
/-- row 10 -/
def extD10 : PL := []
/-- all rows -/
def extD : List PL := [extD0, extD1, extD2, extD3, extD4, extD5, extD6, extD7, extD8, extD9, extD10]
end Verif.PL
