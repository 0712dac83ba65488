import Verif.Proof.CRC32Four

/-!
The numbers for `CRC32Four`, written by tools/gen_crclogs.py, and its checks, evaluated by the kernel: every number in
this file is verified.
-/

namespace Verif.Proof.CRC32
open Spec Spec.CRC32

set_option maxRecDepth 1000000
set_option Elab.async false

/-- the columns of 1 step, ... -/
def mat0 : List Nat := [
  3988292384, 1, 2, 4, 8, 16, 32, 64, 128, 256, 512, 1024, 2048, 4096, 8192, 16384, 32768, 65536, 131072, 262144,
  524288, 1048576, 2097152, 4194304, 8388608, 16777216, 33554432, 67108864, 134217728, 268435456, 536870912,
  1073741824]

/-- ... and of 2, 4, ..., 2^31 steps -/
def mats : List (List Nat) := [
  [1994146192, 3988292384, 1, 2, 4, 8, 16, 32, 64, 128, 256, 512, 1024, 2048, 4096, 8192, 16384, 32768, 65536,
   131072, 262144, 524288, 1048576, 2097152, 4194304, 8388608, 16777216, 33554432, 67108864, 134217728, 268435456,
   536870912],
  [498536548, 997073096, 1994146192, 3988292384, 1, 2, 4, 8, 16, 32, 64, 128, 256, 512, 1024, 2048, 4096, 8192,
   16384, 32768, 65536, 131072, 262144, 524288, 1048576, 2097152, 4194304, 8388608, 16777216, 33554432, 67108864,
   134217728],
  [1996959894, 3993919788, 124634137, 249268274, 498536548, 997073096, 1994146192, 3988292384, 1, 2, 4, 8, 16, 32,
   64, 128, 256, 512, 1024, 2048, 4096, 8192, 16384, 32768, 65536, 131072, 262144, 524288, 1048576, 2097152, 4194304,
   8388608],
  [421212481, 842424962, 1684849924, 3369699848, 1254232657, 2508465314, 4034481925, 998479947, 1996959894,
   3993919788, 124634137, 249268274, 498536548, 997073096, 1994146192, 3988292384, 1, 2, 4, 8, 16, 32, 64, 128, 256,
   512, 1024, 2048, 4096, 8192, 16384, 32768],
  [3099354981, 2852767883, 2405603159, 3316918511, 1343838111, 2687676222, 2601801789, 3982079547, 29518391,
   59036782, 118073564, 236147128, 472294256, 944588512, 1889177024, 3778354048, 421212481, 842424962, 1684849924,
   3369699848, 1254232657, 2508465314, 4034481925, 998479947, 1996959894, 3993919788, 124634137, 249268274,
   498536548, 997073096, 1994146192, 3988292384],
  [3433693342, 1109723005, 2219446010, 3555007413, 2092642603, 4185285206, 698204909, 1396409818, 2792819636,
   2543784233, 4098827283, 871321191, 1742642382, 3485284764, 1141601657, 2283203314, 3411858341, 1304994059,
   2609988118, 3964895853, 64357019, 128714038, 257428076, 514856152, 1029712304, 2059424608, 4118849216, 812665793,
   1625331586, 3250663172, 1492342857, 2984685714],
  [2926088593, 2275419491, 3560000647, 1930665807, 3861331614, 390036349, 780072698, 1560145396, 3120290792,
   2827399569, 2323408227, 3481914503, 1147313999, 2294627998, 3405478781, 1317531835, 2635063670, 3782132909,
   430739227, 861478454, 1722956908, 3445913816, 1102706673, 2205413346, 3717650821, 1616688459, 3233376918,
   1510200173, 3020400346, 3011398645, 3180171691, 2691310871],
  [4057597354, 952438037, 1904876074, 3809752148, 492400361, 984800722, 1969601444, 3939202888, 250079441, 500158882,
   1000317764, 2000635528, 4001271056, 126622817, 253245634, 506491268, 1012982536, 2025965072, 4051930144,
   947265025, 1894530050, 3789060100, 415364681, 830729362, 1661458724, 3322917448, 1466852049, 2933704098,
   2261290245, 3605011531, 1991327447, 3982654894],
  [2402626965, 3306904939, 1363655831, 2727311662, 2658137117, 3887001211, 338483895, 676967790, 1353935580,
   2707871160, 2579279153, 3892861987, 190955015, 381910030, 763820060, 1527640120, 3055280240, 3074868897,
   3053226755, 2961707079, 3126929103, 2947763167, 2216137215, 3546162623, 2110606655, 4221213310, 742666941,
   1485333882, 2970667764, 3109065641, 2848989459, 2295415911],
  [872412467, 1744824934, 3489649868, 1150201817, 2300403634, 3377183013, 1239839755, 2479679510, 4243117677,
   580954779, 1161909558, 2323819116, 3463729817, 1201251187, 2402502374, 3306654605, 1365119323, 2730238646,
   2651407149, 3882057755, 364250743, 728501486, 1457002972, 2914005944, 2148622641, 3679700003, 1842777607,
   3685555214, 1814773341, 3629546682, 1809710901, 3619421802],
  [3459477963, 1192748503, 2385497006, 3341717789, 1428956283, 2857912566, 2411829165, 3304204571, 1385518199,
   2771036398, 2435078045, 4181305723, 688018615, 1376037230, 2752074460, 2472780793, 4256580019, 538805543,
   1077611086, 2155222172, 3684511609, 1816877235, 3633754470, 1784439949, 3568879898, 1912640629, 3825281258,
   326326165, 652652330, 1305304660, 2610609320, 3963911953],
  [275962664, 551925328, 1103850656, 2207701312, 3697063105, 1674080195, 3348160390, 1414576461, 2829152922,
   2318656373, 3474374827, 1163691799, 2327383598, 3456309789, 1198994043, 2397988086, 3333279661, 1445632283,
   2891264566, 2212192813, 3704078875, 1660846711, 3321693422, 1351290781, 2702581562, 2573023285, 3922425387,
   149416471, 298832942, 597665884, 1195331768, 2390663536],
  [4170314095, 710075551, 1420151102, 2840302204, 2313560761, 3367846707, 1242267687, 2484535374, 4083091165,
   1036979195, 2073958390, 4147916780, 889805209, 1779610418, 3559220836, 1933298313, 3866596626, 396242021,
   792484042, 1584968084, 3169936168, 2727591953, 2656470627, 3889957511, 348721999, 697443998, 1394887996,
   2789775992, 2548052657, 4105265955, 840155143, 1680310286],
  [2293676643, 3390861959, 1330242383, 2660484766, 3864431485, 400298171, 800596342, 1601192684, 3202385368,
   2796555761, 2517704099, 4149427463, 903314511, 1806629022, 3613258044, 1976230969, 3952461938, 207263397,
   414526794, 829053588, 1658107176, 3316214352, 1344525025, 2689050050, 2617134533, 3968703947, 40517079, 81034158,
   162068316, 324136632, 648273264, 1296546528],
  [1524148524, 3048297048, 2954076913, 3142992803, 2916974855, 2160723023, 3672444639, 1857756159, 3715512318,
   1637706173, 3275412346, 1560584373, 3121168746, 2942534805, 2243301227, 3491567767, 2068526959, 4137053918,
   912120829, 1824241658, 3648483316, 1772083625, 3544167250, 2098094309, 4196188618, 793282005, 1586564010,
   3173128020, 2704615657, 2568705939, 3913787751, 167662735],
  [3043423970, 2981948293, 3087585611, 2875237591, 2377142255, 3222378911, 1532114303, 3064228606, 3057243069,
   3070402875, 3044295735, 2979630639, 3091339807, 2884973183, 2358993599, 3259482943, 1610514495, 3221028990,
   2760574653, 2456226619, 4290711607, 604972591, 1209945182, 2419890364, 4211619641, 761358387, 1522716774,
   3045433548, 2960803801, 3146090995, 2893682087, 2206543119],
  [2643536319, 3763557695, 467119167, 934238334, 1868476668, 3736953336, 1712047537, 3424095074, 1130238085,
   2260476170, 3590931541, 2003013355, 4006026710, 117390829, 234781658, 469563316, 939126632, 1878253264,
   3756506528, 1690205441, 3380410882, 1233711685, 2467423370, 4250062677, 567580907, 1135161814, 2270323628,
   3587555609, 1893368947, 3786737894, 404428685, 808857370],
  [786709036, 1573418072, 3146836144, 2890979105, 2211489795, 3704641095, 1657907919, 3315815838, 1345826173,
   2691652346, 2611983285, 3962462507, 53330967, 106661934, 213323868, 426647736, 853295472, 1706590944, 3413181888,
   1301482945, 2602965890, 3980210501, 17523915, 35047830, 70095660, 140191320, 280382640, 560765280, 1121530560,
   2243061120, 3491089729, 2069535939],
  [457511406, 915022812, 1830045624, 3660091248, 1864374433, 3728748866, 1743873221, 3487746442, 1152685397,
   2305370794, 3382924053, 1211605099, 2423210198, 4222584813, 741214619, 1482429238, 2964858476, 3120646809,
   2943587187, 2241208487, 3495773967, 2076936287, 4153872574, 878651197, 1757302394, 3514604788, 2038972329,
   4077944658, 1028782309, 2057564618, 4115129236, 838779241],
  [3168883202, 2729681477, 2652259019, 3881665495, 365560303, 731120606, 1462241212, 2924482424, 2278627505,
   3570612003, 1926719495, 3853438990, 271361629, 542723258, 1085446516, 2170893032, 3652936593, 1745338723,
   3490677446, 2070807501, 4141615002, 919144821, 1838289642, 3676579284, 1832472041, 3664944082, 1871983077,
   3743966154, 1696711125, 3393422250, 1341522197, 2683044394],
  [4278773231, 627101087, 1254202174, 2508404348, 4034357945, 1000330035, 2000660070, 4001320140, 126853081,
   253706162, 507412324, 1014824648, 2029649296, 4059298592, 949415937, 1898831874, 3797663748, 533104201,
   1066208402, 2132416804, 4264833608, 655975121, 1311950242, 2623900484, 3820622025, 470099923, 940199846,
   1880399692, 3760799384, 455310193, 910620386, 1821240772],
  [1870010158, 3740020316, 1722374905, 3444749810, 1104440741, 2208881482, 3693129941, 1664116715, 3328233430,
   1471191533, 2942383066, 2243125749, 3491218859, 2069794071, 4139588142, 906703389, 1813406778, 3626813556,
   1797822121, 3595644242, 2010340581, 4020681162, 71071189, 142142378, 284284756, 568569512, 1137139024, 2274278048,
   3563877121, 1940512835, 3881025670, 366380877],
  [1458948793, 2917897586, 2158374053, 3661455115, 1863039063, 3726078126, 1734338333, 3468676666, 1175362101,
   2350724202, 3276500629, 1575476075, 3150952150, 2901306349, 2192429467, 3727336823, 1730432175, 3460864350,
   1205875965, 2411751930, 3304183221, 1385344299, 2770688598, 2436608749, 4177945499, 696107383, 1392214766,
   2784429532, 2426342905, 4199488947, 804207911, 1608415822],
  [945394604, 1890789208, 3781578416, 431856417, 863712834, 1727425668, 3454851336, 1084798033, 2169596066,
   3654539013, 1758898251, 3517796502, 2016126829, 4032253658, 1004510197, 2009020394, 4018040788, 93182441,
   186364882, 372729764, 745459528, 1490919056, 2981838112, 3087498241, 2877292099, 2374957767, 3228365775,
   1537794527, 3075589054, 3050471741, 2966684731, 3134787127],
  [3022289696, 3006918657, 3171083843, 2708785863, 2576913359, 3896517087, 200361471, 400722942, 801445884,
   1602891768, 3205783536, 2774120865, 2445440259, 4176866375, 714792655, 1429585310, 2859170620, 2410147897,
   3292456499, 1393347111, 2786694222, 2537696989, 4126497787, 815509943, 1631019886, 3262039772, 1605143545,
   3210287090, 2781030821, 2432128267, 4204768343, 776888047],
  [1766950567, 3533901134, 2117541085, 4235082170, 598570293, 1197140586, 2394281172, 3323637737, 1464097171,
   2928194342, 2254462989, 3618752091, 1947372279, 3894744558, 188427677, 376855354, 753710708, 1507421416,
   3014842832, 3155473889, 2740481411, 2646728007, 3774004431, 445939679, 891879358, 1783758716, 3567517432,
   1916206001, 3832412002, 329967749, 659935498, 1319870996],
  [1723596830, 3447193660, 1098974777, 2197949554, 3715440293, 1637563147, 3275126294, 1562241645, 3124483290,
   2936451061, 2239519147, 3515462935, 2019716207, 4039432414, 989378557, 1978757114, 3957514228, 213170601,
   426341202, 852682404, 1705364808, 3410729616, 1306932065, 2613864130, 3974745029, 44208587, 88417174, 176834348,
   353668696, 707337392, 1414674784, 2829349568],
  [3045795763, 2959558951, 3149894671, 2886610527, 2204982015, 3719017407, 1613127999, 3226255998, 1541964477,
   3083928954, 3033730229, 3000442667, 3202299927, 2798614127, 2532305567, 4138652543, 908894399, 1817788798,
   3635577596, 1779696569, 3559393138, 1931544741, 3863089482, 401941717, 803883434, 1607766868, 3215533736,
   2753776401, 2469892195, 4246611591, 558713679, 1117427358],
  [4263981410, 658465925, 1316931850, 2633863700, 3800703593, 509952659, 1019905318, 2039810636, 4079621272,
   1025847153, 2051694306, 4103388612, 844660169, 1689320338, 3378640676, 1236461577, 2472923154, 4256867941,
   537152139, 1074304278, 2148608556, 3679670809, 1842848371, 3685696742, 1815056269, 3630112538, 1808742517,
   3617485034, 1951262613, 3902525226, 172398613, 344797226],
  [3553200147, 2095191655, 4190383310, 687431645, 1374863290, 2749726580, 2629564585, 3792107283, 528279655,
   1056559310, 2113118620, 4226237240, 750747697, 1501495394, 3002990788, 3196913609, 2792032723, 2544309735,
   4097781135, 856644959, 1713289918, 3426579836, 1124854969, 2249709938, 3613308069, 1976332043, 3952664086,
   205568621, 411137242, 822274484, 1644548968, 3289097936],
  [4158054068, 886881065, 1773762130, 3547524260, 2106908425, 4213816850, 757234277, 1514468554, 3028937108,
   2992821609, 3216288915, 2753060711, 2470557839, 4260525919, 546695423, 1093390846, 2186781692, 3755884985,
   1691190579, 3382381158, 1212617357, 2425234714, 4201466997, 799776427, 1599552854, 3199105708, 2788029209,
   2536169587, 4112828071, 825789199, 1651578398, 3303156796]]

/-- the logarithms of the odd numbers 1, 3, ..., 3005 -/
def logs : List Nat := [
  376820508, 1900164003, 1245661470, 3558259271, 1860866707, 363123237, 1660431261, 1162259468, 2375777867,
  3546953312, 257621070, 4226415792, 238738677, 158594912, 1002399996, 3577441945, 1625526783, 225904439, 3082873926,
  3793110587, 2606783580, 1348069532, 2554862237, 4035799677, 4254413629, 1681010444, 3712321831, 4286077845,
  2124288904, 2148797802, 3359518457, 2939917021, 3316312126, 1679659914, 3070927367, 2572809858, 3500777021,
  3381095218, 3086557091, 68568422, 208612279, 4201924180, 967634658, 4211197502, 346101249, 2984793017, 3306977068,
  1943274173, 278779722, 339353994, 3706489751, 1821275832, 1947024457, 677169543, 1139501004, 725794204, 1745704605,
  860552830, 266612435, 2271302254, 1243148184, 877529607, 589852415, 2089042729, 3679578012, 914485796, 1075930662,
  1953461757, 2324670002, 2912238079, 2951131496, 770517303, 2098527963, 725484133, 3053278466, 1053585495,
  1331607192, 1878788502, 715486381, 1270108313, 2237549434, 3090752829, 904188011, 3602200504, 1495705403,
  505255991, 1400005156, 3346816563, 833575080, 3838936316, 348879588, 269127758, 954514721, 4100625436, 1338207675,
  1780766847, 490320480, 3316945920, 1095175702, 514847858, 197888728, 413368873, 1832377811, 2228722563, 797598708,
  3640946200, 1262575492, 3109964287, 1692398465, 4249181308, 2681294082, 1147575880, 1004300147, 270276740,
  445085494, 1317393861, 1663876120, 2932641282, 491998229, 2973709755, 808212215, 3642839171, 1984324413, 901493646,
  519013654, 2857037614, 822153425, 1433334057, 3686121733, 2845607968, 3809342526, 3207514136, 181703082,
  1235094340, 1577011274, 326922206, 951240368, 781622071, 4159002568, 3413382841, 3568844249, 4249154047,
  2243498566, 1067461008, 2413243719, 4254000095, 643329717, 3166133328, 1860070897, 1844491560, 1759485185,
  2156273054, 3111278101, 1578107442, 2862948360, 2838527847, 2004880736, 1897940345, 2713117928, 1533569610,
  1427357541, 2918099488, 4061109616, 3228280662, 276497970, 3036321716, 2236182323, 4186751519, 1007257191,
  3257706746, 2937521906, 1984988189, 861821591, 1939569939, 2107057206, 1321226758, 3661178797, 702812192,
  1306158611, 1314431880, 1733539278, 4199970744, 960475309, 3299376761, 702386743, 3569611110, 3766894110,
  1635558262, 3644064821, 2524724448, 4177059124, 3727032328, 2529451800, 3607571301, 2209206315, 1176541570,
  4051843135, 2758377969, 1922512932, 3609653696, 3179477045, 2237511170, 1554884060, 2424375107, 2015481111,
  1356504719, 1538368395, 1001800799, 2640931557, 999257383, 3987916899, 3737599197, 3325206439, 1273392057,
  3788813581, 1799629877, 2358992354, 3446547956, 1614380831, 3998577858, 695923576, 266597494, 3516712946,
  1729576587, 4239022871, 3479880387, 3654863617, 247585519, 1737114902, 4113237043, 3213789217, 247890333,
  3179783638, 1845674950, 1110685070, 868241627, 2795713093, 1354303996, 1754698604, 3973120607, 245893527,
  156998698, 409655110, 4076266359, 3499674786, 2665929734, 4110736069, 1890355237, 2612683800, 4137391666,
  287924845, 2104696898, 192118467, 3756536127, 2337330107, 2508554487, 3752285546, 199007823, 2449280670,
  2727330971, 2753603966, 2503991056, 1374136151, 230297775, 2905403445, 2559191723, 2630184023, 1013394042,
  2721333427, 99638656, 3548659888, 3283179407, 3927527822, 900335009, 1104002531, 862065036, 2889596836, 47420492,
  362298815, 1676535867, 4083854876, 836226592, 3982199712, 2729028733, 1944571856, 392488857, 3462946386,
  1655622289, 1564477414, 2442327201, 2944809220, 3113994183, 12378976, 1513954102, 4127177103, 3351237960,
  2847250209, 3037461933, 1798083366, 4077648770, 1555954602, 3403273600, 108753658, 1890646143, 2412414469,
  1468493978, 2650486772, 1744682430, 3849822774, 1292124039, 2397918840, 900987370, 1494803082, 2347125121,
  4006227046, 3386076074, 646844597, 1309650215, 4005122415, 3500020459, 2772658397, 1882269716, 2000943510,
  983241402, 2320337766, 3382123096, 2666540186, 3205236116, 1936328791, 252739757, 2813664675, 3104449777,
  3923950064, 312002688, 2954121055, 2712288092, 706040851, 3885032574, 3224430881, 2116250199, 1165196869,
  1401328887, 161380948, 1288111386, 741519882, 1953032480, 3662459880, 4047269223, 2260533401, 3603997346,
  1734029806, 1685438349, 126852583, 1442943337, 540028579, 4289071847, 1500840801, 3837726564, 2149286512,
  495110553, 531217685, 3767765413, 2657527183, 4146653400, 1223254836, 3042358670, 3378165331, 4135560528,
  1807946432, 2175299795, 207104479, 1776397492, 1032704105, 2476998209, 4164452294, 2567781712, 2660094966,
  3274559206, 1273127310, 2249294957, 3156510323, 819772664, 1946661140, 2529868586, 3416485531, 3223158744,
  1409335767, 3559028687, 1886245779, 2195736767, 1704754520, 300945449, 2458857437, 2632367840, 415629274,
  1525756136, 3343482350, 864735298, 4240132832, 1053788099, 1397672630, 388626821, 44424839, 3280444264, 2256201720,
  539638953, 3414310059, 1909965902, 2685071211, 3462207860, 1864347592, 113666246, 1984414324, 1281127854,
  2923922911, 1137776384, 2176901824, 2358675194, 187592161, 2986208818, 435465445, 2505069158, 3877229884,
  2543790296, 2794298326, 1923484620, 2235150708, 2734914224, 478142664, 1962487689, 2537913823, 1911366521,
  1184237114, 1369287068, 3726611838, 1392765809, 3940067006, 240222580, 131756082, 456166770, 1166418223,
  4139487582, 2928711668, 2316648884, 1958595477, 960818396, 883350644, 97042422, 42306236, 2077421121, 4220220921,
  341014934, 4103809952, 1870317212, 3952607672, 2563700868, 884095842, 726125616, 4030604685, 131661382, 515490616,
  3950020117, 2359653522, 1103722822, 2620828346, 437591310, 1750524105, 1015237754, 2022565404, 3844860230,
  2721064701, 587306223, 1688023026, 2558611723, 312152503, 1734746304, 3904850654, 3420594978, 591153398,
  2321659266, 2619279381, 2178960293, 2056979088, 1000800341, 3971998047, 3584141471, 3251492747, 3874225734,
  2015390680, 1471057334, 282115449, 4077754696, 3417724698, 1930821599, 3411907282, 569102570, 3521036699,
  2989308402, 1794745562, 3160210370, 539643364, 1599780898, 2825203179, 3691080663, 3128141731, 858902968,
  3739003735, 387641099, 1991787062, 3171967857, 3016741621, 797621116, 1947760193, 1371050713, 3410265744,
  234105305, 3512180622, 836579393, 3698994170, 271343243, 3688904138, 673730044, 164278522, 3785903895, 3215567543,
  475293348, 3168612274, 2880512801, 2548411387, 1328841246, 2370006623, 309751988, 1738493873, 1163104764,
  1455477184, 3202649035, 3967043396, 868867823, 3256739906, 1104598766, 3903326812, 1370422586, 969168757,
  2626550520, 3506030170, 3656082509, 1127552364, 3581715091, 4041238865, 1981868697, 3849140457, 3777469544,
  1549633095, 2258707328, 3076553399, 1942262069, 2539172835, 27798487, 2134801198, 4040561726, 449932565,
  3603354719, 2207134672, 2541660873, 1194569335, 2314457028, 3767667615, 3979573783, 1750566475, 2283861610,
  2254787849, 3042658128, 2104868813, 2342526754, 3125093497, 2387760029, 282271349, 2521351228, 1343951540,
  3279234055, 3717051867, 569288237, 3613844267, 1523757755, 1680903515, 3172873397, 3298490147, 3812764854,
  291130870, 1644517439, 884050726, 2938211128, 1167114640, 4193744611, 1475328454, 2355949754, 3263853995,
  2804637414, 1008487542, 3316208128, 189149144, 1518275503, 1299123323, 3966918156, 2238061003, 2595425209,
  1983836950, 2864546818, 387150236, 3220341483, 656670319, 948541345, 1175188375, 3267868914, 3793819088,
  2723998831, 3354843266, 327838536, 1664676155, 1898265473, 316417702, 4281565848, 1842477739, 2371206583,
  1389602811, 1994226584, 4069471878, 2342432585, 2533609747, 3033530435, 1752341858, 3618764760, 1187590803,
  2897812459, 4181379533, 495542773, 690585697, 1943839546, 4224870236, 584533678, 1984443777, 2799785451,
  1723284249, 3282926844, 1337436576, 690298248, 3527437209, 1504162012, 3686420374, 1646374175, 1249158993,
  1784074269, 3794115445, 1536760822, 3861628337, 718921226, 1993928121, 392674404, 1503505063, 846107078,
  1827419824, 2770780421, 3919571222, 964636431, 409861464, 1367195755, 2321411364, 1872373853, 1239113461,
  2056589262, 4176713411, 1697670542, 2704996057, 3170760614, 3186562317, 1493033647, 1549699531, 4225251912,
  1780260156, 1888872964, 1433229108, 2831252852, 2409059606, 1828760244, 3683777403, 1545310994, 1264815893,
  1374118177, 1949513526, 3762007698, 1319455441, 1282630252, 412820377, 15782809, 1539552349, 4166043288, 818141431,
  3409948043, 2145143457, 2215627854, 206368221, 3267566067, 2323594557, 2725248704, 863691206, 1407525336,
  2159885076, 758324597, 2783776568, 2442816176, 3504295635, 3442734432, 2494893360, 276138478, 2667730012,
  773495625, 2910362823, 2582261694, 3679028623, 245464585, 3195126069, 2629649464, 2807645066, 4139020811,
  195572903, 2915879066, 1332911295, 2047591679, 3153941792, 4026655782, 121091591, 1595509936, 799392270,
  3646225298, 2848370772, 210454871, 2441082760, 2243834552, 895624996, 3785722915, 497134798, 3318198064,
  1065739395, 1395481521, 3520808488, 2586556097, 2154702504, 855342120, 3532383225, 962344771, 3713068696,
  3838546303, 1171474548, 2902270477, 572380818, 2829374438, 2427172604, 1976283187, 414035794, 4201886196,
  3720169020, 1085256798, 636322547, 1209402418, 571966866, 1201768411, 1909879507, 4116869314, 3539820781,
  3058232353, 2738918856, 374416763, 1702320778, 2845036315, 4010952872, 1915296369, 1700915728, 3602732580,
  69908841, 1452247478, 3350862116, 450071948, 693144741, 2147845832, 3873619933, 2127447863, 3266860452, 3812364752,
  2178602958, 831013924, 2390557887, 1128586396, 1467034628, 397193285, 406981400, 3050408054, 1818494947,
  4237634064, 1008861616, 17953488, 1419490837, 1042589244, 3425423710, 2477706469, 3239462918, 3844879621,
  4117745538, 2477036611, 3423004068, 178298759, 3403143574, 118180403, 1201912432, 721262654, 24742271, 3895101526,
  2562083116, 3789745884, 1347770001, 3445710238, 788924958, 3492457272, 3007818128, 1237933499, 2656293664,
  110808391, 4225234619, 3795962223, 1428266203, 1693938853, 3173018716, 3729914800, 779464875, 1284437683,
  2224076454, 2849560003, 2764019816, 3464881574, 4121713218, 145740091, 1752240006, 2918823793, 480853851,
  2495288021, 1127133221, 3793521133, 374819678, 3308600970, 3727262942, 4045701412, 820174077, 4244396845,
  2744939962, 1434722151, 837987601, 2424609584, 1450271217, 1853046950, 100781727, 1823220438, 2003244456,
  2922028561, 523705453, 1205203430, 1556771513, 3686300442, 1585218997, 2413544908, 1283541610, 3172515353,
  1348131086, 2134907686, 3713707450, 3677423313, 2411209417, 2550416635, 3552090537, 536281556, 2555306279,
  150939842, 2621683481, 3062050742, 211074486, 3393924474, 388119566, 1396803599, 4275124086, 197128776, 785353981,
  3532190373, 1107761683, 2195062791, 3675981556, 1456733115, 4203680939, 884081083, 2621230453, 3409571406,
  83615998, 1993196927, 1420557230, 3937004635, 2530059233, 682606466, 2406206908, 3163340984, 189886738, 1365093806,
  663812648, 3959204886, 264428645, 4218185933, 385116046, 1242611205, 1378808728, 1806814447, 3873211190,
  2534366895, 2411206305, 292071355, 984071523, 1630800375, 2340824842, 3309506812, 3781250158, 2642274440,
  3102838736, 2578732626, 2445474785, 3806917888, 2559758090, 1305442448, 1674906084, 591167962, 847753083,
  2490148713, 826177618, 2998939428, 1584821791, 2821986574, 522919082, 3240210172, 2668451142, 477292556,
  2481686207, 2978254841, 1872893845, 1247109699, 430500874, 4269629651, 3421415768, 146685665, 2955267803,
  2949385056, 29590742, 336953712, 2689128957, 2448206433, 1461798862, 4049364467, 3400130647, 1492226015, 263848255,
  2411204214, 3795289727, 4209544045, 968556468, 2746198540, 1918921506, 3718682633, 2280936473, 18062928, 842381094,
  837562014, 2579333648, 2495840576, 4293446575, 932343675, 863273494, 3652557619, 3360526201, 2715842415, 899742473,
  3878774328, 573873707, 1536399016, 2257531773, 2471918007, 653901219, 1010544056, 3387007743, 2054508505,
  1702151956, 2834213847, 3192330235, 2270550286, 1599732814, 925571472, 357384293, 120284406, 1929392746,
  4030085864, 3205214821, 3111732757, 4236527295, 3613551577, 996143321, 241094282, 2350566159, 393731637,
  1298973133, 3984637427, 369157823, 2623067799, 2618496412, 158963886, 3267420740, 2986693433, 1298279533,
  2662009376, 2729915157, 2372148043, 571273159, 928949026, 94455264, 3064149519, 3928568023, 2327980170, 1184377740,
  3285569244, 3921509468, 2541521099, 995653195, 371666863, 1014111772, 2940593635, 687323319, 2429375967,
  1222715020, 1101914912, 3928403914, 1423716890, 2535699314, 581166062, 3467763626, 2698522097, 2761429299,
  378927192, 2904662800, 3375002744, 187867842, 3900707067, 2625754361, 1599325581, 787389004, 4192055920,
  3037870653, 449575800, 2590374961, 768880887, 1561295734, 3836424200, 3581745079, 4140835890, 1677696620,
  2871964176, 1062715869, 1891557102, 1745288310, 1946986094, 2117134853, 310589414, 2244094163, 1723367295,
  190062004, 1037257962, 721000173, 3486231638, 3287615195, 2900521543, 1764624188, 3528940, 1935625715, 1027222231,
  2030102119, 2948573134, 985384224, 3983467067, 3136503962, 3354812269, 2698520260, 3570752873, 575295908,
  3783854706, 4157811660, 3009032742, 4198518980, 3449292130, 3764922494, 3454137502, 1411015421, 176150007,
  499237686, 3220729334, 1648941370, 2344686397, 336359625, 903620622, 642103406, 862640000, 1003777212, 1233838485,
  3582373833, 499680769, 2228171794, 3054198277, 1955589222, 3547976915, 1983720154, 3342066046, 1835950123,
  2325650106, 1642423428, 3898238323, 1327549799, 4140329013, 1490324237, 3645636901, 3141476326, 3798816091,
  3416119790, 1534612407, 2459100210, 1392161895, 318691071, 4240048711, 3241298945, 3701258036, 4290566181,
  2551121381, 2655556189, 2542625816, 3144914561, 1323970936, 1461170393, 3995894027, 3547884487, 4223131444,
  81958544, 1531751340, 808044007, 2805225170, 1073392603, 977194899, 219958295, 541280009, 3901427293, 4060473784,
  3412437577, 1553359608, 399547242, 537545666, 2821820667, 3955083558, 2340364008, 2945500005, 1444360942,
  3926050638, 3286473102, 24407523, 1698315565, 679643478, 2159191179, 3068549916, 4030826491, 2298915709,
  3343891397, 4285743067, 739500708, 1450093693, 629094277, 2900496974, 36966451, 997574637, 1642618300, 614680515,
  1454167843, 28292161, 2225496365, 659432220, 4262067655, 1909502497, 4046532111, 149956026, 370452736, 3527609079,
  3492664289, 772783428, 2700438180, 3028525778, 3463565964, 1256853731, 3375320363, 899625958, 3480897152,
  658819582, 2431333872, 3959028948, 741687016, 4018079451, 2845736940, 2259608196, 2041767077, 3943227635, 26713573,
  563573962, 1582511951, 1555923539, 3620581189, 4170697719, 1692770620, 4205256305, 1505687392, 624316180,
  1321994974, 1069813305, 536532118, 2251933438, 3623609476, 2768165413, 3406622021, 2594503604, 2262555823,
  887384600, 146466991, 1919517147, 1670860657, 2631764838, 2132523498, 882946404, 3216206173, 3285126003,
  3746363866, 969436773, 1153553622, 1586633690, 1834104684, 830049561, 50435755, 2149144764, 2166488106, 3029482648,
  2388689226, 3874595978, 73865231, 705301224, 2361267790, 1392880747, 3550043901, 3679788317, 93313869, 3307038110,
  682776285, 292139207, 4074945045, 1641888544, 537028963, 4021984910, 4152634357, 1477012211, 3716798019, 641014093,
  3233646961, 2194096613, 3048420534, 141077717, 124106738, 1301562281, 1822164712, 4236815801, 2287979382,
  3486631155, 1385836479, 2392816600, 410962619, 326961957, 3121335, 200308942, 806546121, 139336123, 1276021465,
  2456898335, 878083764, 3387904879, 4088491864, 122246994, 937825052, 2885970278, 1924909887, 174163459, 3517110057,
  1333473386, 2001644210, 1141687490, 1949583674, 597456815, 1249173287, 129045983, 3115385762, 3722525929,
  3264522923, 2615476547, 780542091, 3505536598, 3394666332, 2888895313, 1724573271, 3681984268, 3645588132,
  1098357239, 3239949952, 2826689863, 1703650019, 3887828496, 665434523, 2185844962, 2821619863, 1546718973,
  4028085965, 212661284, 2771687226, 4275721621, 3270797105, 815493852, 505474465, 3670118896, 733331367, 3706537037,
  2311210030, 4242682594, 594836937, 357842382, 3484941330, 520334082, 2256909559, 3802517301, 3600625965,
  2714515229, 1711173445, 1371570621, 729969615, 3870483831, 1346774810, 2167168633, 2513605740, 2659600641,
  1289631695, 393744615, 2133823529, 3838124872, 2816894239, 792786960, 3940013468, 2550413676, 3474914234,
  3928499296, 921553118, 4119822509, 2658514415, 1889195104, 2683453241, 3390271220, 3109747959, 2736669605,
  1670833902, 3327273772, 1174102793, 3207427544, 3750131082, 2283091561, 2725600878, 1388781450, 1535596827,
  2429509306, 3287626822, 2055786145, 3682142532, 163913340, 909726548, 3573563759, 2528621429, 3858391430,
  1232142218, 629295327, 2339324000, 376269800, 898760771, 912879459, 2916787681, 4271866848, 2117006700, 2382804436,
  1989568193, 800247359, 3192287789, 55313290, 2230093496, 3832214379, 4051256635, 2908438321, 3333920459,
  3008281673, 3529699010, 922630716, 3670092941, 2671697237, 2762881021, 2696190844, 2140178620, 1655160665,
  3939045131, 2066859208, 2616114513, 466332295, 3201955259, 3258310891, 1084412115, 798270084, 2824821795,
  3980144688, 1928028228, 1928441474, 3028255134, 2433160846, 1815474077, 3375038284, 3838229476, 78001559,
  2281904589, 2743285101, 3402625782, 4008946142, 1694672490, 3062743792, 2887839587, 859147077, 2095753041,
  412887283, 1553603920, 581242165, 1439689726, 1301545156, 2030087280, 947947878, 3737315811, 1478251096,
  2198553713, 262295438, 626597423, 1118203239, 3774705105, 1109560415, 3557640853, 3814961535, 2819506444,
  2790809118, 1263386070, 3229265996, 1588370291, 3188221475, 2946908884, 689881719, 2720685498, 2988559636,
  1235434892, 1723512379, 1388351717, 3469861900, 2405343506, 3957243142, 809417423, 586883361, 3607510384,
  2554496439, 1531356565, 3252854433, 3752346117, 2155082085, 1359722945, 3907979473, 1322368623, 142764856,
  1262793682, 940781218, 1511003823, 218162159, 1714993051, 4077140171, 2496525824, 704461684, 2960662070,
  2979540373, 890522343]

theorem mat0_ok : mat0 = colsN (zn (2 ^ 0)) := by decide +kernel
theorem mats_ok : matsOk mats mat0 = true := by decide +kernel
theorem mats_length : mats.length = 31 := by decide +kernel
theorem logs_length : logs.length = 1503 := by decide +kernel
theorem logs_ok : oddOk (mat0 :: mats) logs (zN 1) = true := by decide +kernel
theorem four_ok : fourOk 3006 logs = true := by decide +kernel

theorem mats_eq : mat0 :: mats = mapsN 32 0 := by
  have h := mats_ok
  rw [mat0_ok] at h
  have h := matsOk_eq mats 0 h
  rw [mats_length] at h
  rw [mat0_ok, h]; rfl

/-- no four of the first 3006 values, the first of them the start, cancel out -/
theorem quadrinomials (a b c : Nat) (ha : 0 < a) (hb : 0 < b) (hc : 0 < c) (hs : a + (b + c) < 3006) :
    zn (a + (b + c)) 1 ^^^ zn (b + c) 1 ≠ zn c 1 ^^^ 1 := by
  have h := logs_ok
  rw [mats_eq] at h
  exact no_quadrinomial 3006 (by decide) logs (by rw [logs_length]; decide) (by rw [logs_length]; decide) h four_ok a b c ha hb hc hs

end Verif.Proof.CRC32
