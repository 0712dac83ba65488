import Verif.Proof.TigerTree

/-! Generated by tools/gen_tiger.py: the state of the S-box generation after every 512 steps, as
trees. Nothing is assumed about these numbers; Proof/TigerGen.lean checks each against the one
before. -/

namespace Verif.Proof.Tiger

/-- the words and multipliers of the 24 rounds for the generator string -/
def sched : List (Nat × Nat) := [(2318545058865310036, 5), (5629627573115166785, 5), (2335243268450711397, 5), (7957695015192261958, 5), (8317957336205500460, 5), (8318822943727624307, 5), (4981091613110464111, 5), (7881695624165353836, 5), (447123866708041463, 7), (10402792724561681875, 7), (12244934352308038140, 7), (2836888887477578515, 7), (16618866023685414825, 7), (7480775136677617159, 7), (3134034369706461447, 7), (9542871854461877636, 7), (11706490755504738882, 9), (2051080907171186883, 9), (166720010925739458, 9), (8230453231617864660, 9), (1662320693064161016, 9), (16576204640468943162, 9), (2336691427393222690, 9), (11294223207073256863, 9)]

noncomputable def g0_0 : Tree := (.node (.node (.node (.node (.node (.node (.node (.node (.leaf 0) (.leaf 9259542123273814144)) (.node (.leaf 4629771061636907072) (.leaf 13889313184910721216))) (.node (.node (.leaf 2314885530818453536) (.leaf 11574427654092267680)) (.node (.leaf 6944656592455360608) (.leaf 16204198715729174752)))) (.node (.node (.node (.leaf 1157442765409226768) (.leaf 10416984888683040912)) (.node (.leaf 5787213827046133840) (.leaf 15046755950319947984))) (.node (.node (.leaf 3472328296227680304) (.leaf 12731870419501494448)) (.node (.leaf 8102099357864587376) (.leaf 17361641481138401520))))) (.node (.node (.node (.node (.leaf 578721382704613384) (.leaf 9838263505978427528)) (.node (.leaf 5208492444341520456) (.leaf 14468034567615334600))) (.node (.node (.leaf 2893606913523066920) (.leaf 12153149036796881064)) (.node (.leaf 7523377975159973992) (.leaf 16782920098433788136)))) (.node (.node (.node (.leaf 1736164148113840152) (.leaf 10995706271387654296)) (.node (.leaf 6365935209750747224) (.leaf 15625477333024561368))) (.node (.node (.leaf 4051049678932293688) (.leaf 13310591802206107832)) (.node (.leaf 8680820740569200760) (.leaf 17940362863843014904)))))) (.node (.node (.node (.node (.node (.leaf 289360691352306692) (.leaf 9548902814626120836)) (.node (.leaf 4919131752989213764) (.leaf 14178673876263027908))) (.node (.node (.leaf 2604246222170760228) (.leaf 11863788345444574372)) (.node (.leaf 7234017283807667300) (.leaf 16493559407081481444)))) (.node (.node (.node (.leaf 1446803456761533460) (.leaf 10706345580035347604)) (.node (.leaf 6076574518398440532) (.leaf 15336116641672254676))) (.node (.node (.leaf 3761688987579986996) (.leaf 13021231110853801140)) (.node (.leaf 8391460049216894068) (.leaf 17651002172490708212))))) (.node (.node (.node (.node (.leaf 868082074056920076) (.leaf 10127624197330734220)) (.node (.leaf 5497853135693827148) (.leaf 14757395258967641292))) (.node (.node (.leaf 3182967604875373612) (.leaf 12442509728149187756)) (.node (.leaf 7812738666512280684) (.leaf 17072280789786094828)))) (.node (.node (.node (.leaf 2025524839466146844) (.leaf 11285066962739960988)) (.node (.leaf 6655295901103053916) (.leaf 15914838024376868060))) (.node (.node (.leaf 4340410370284600380) (.leaf 13599952493558414524)) (.node (.leaf 8970181431921507452) (.leaf 18229723555195321596))))))) (.node (.node (.node (.node (.node (.node (.leaf 144680345676153346) (.leaf 9404222468949967490)) (.node (.leaf 4774451407313060418) (.leaf 14033993530586874562))) (.node (.node (.leaf 2459565876494606882) (.leaf 11719107999768421026)) (.node (.leaf 7089336938131513954) (.leaf 16348879061405328098)))) (.node (.node (.node (.leaf 1302123111085380114) (.leaf 10561665234359194258)) (.node (.leaf 5931894172722287186) (.leaf 15191436295996101330))) (.node (.node (.leaf 3617008641903833650) (.leaf 12876550765177647794)) (.node (.leaf 8246779703540740722) (.leaf 17506321826814554866))))) (.node (.node (.node (.node (.leaf 723401728380766730) (.leaf 9982943851654580874)) (.node (.leaf 5353172790017673802) (.leaf 14612714913291487946))) (.node (.node (.leaf 3038287259199220266) (.leaf 12297829382473034410)) (.node (.leaf 7668058320836127338) (.leaf 16927600444109941482)))) (.node (.node (.node (.leaf 1880844493789993498) (.leaf 11140386617063807642)) (.node (.leaf 6510615555426900570) (.leaf 15770157678700714714))) (.node (.node (.leaf 4195730024608447034) (.leaf 13455272147882261178)) (.node (.leaf 8825501086245354106) (.leaf 18085043209519168250)))))) (.node (.node (.node (.node (.node (.leaf 434041037028460038) (.leaf 9693583160302274182)) (.node (.leaf 5063812098665367110) (.leaf 14323354221939181254))) (.node (.node (.leaf 2748926567846913574) (.leaf 12008468691120727718)) (.node (.leaf 7378697629483820646) (.leaf 16638239752757634790)))) (.node (.node (.node (.leaf 1591483802437686806) (.leaf 10851025925711500950)) (.node (.leaf 6221254864074593878) (.leaf 15480796987348408022))) (.node (.node (.leaf 3906369333256140342) (.leaf 13165911456529954486)) (.node (.leaf 8536140394893047414) (.leaf 17795682518166861558))))) (.node (.node (.node (.node (.leaf 1012762419733073422) (.leaf 10272304543006887566)) (.node (.leaf 5642533481369980494) (.leaf 14902075604643794638))) (.node (.node (.leaf 3327647950551526958) (.leaf 12587190073825341102)) (.node (.leaf 7957419012188434030) (.leaf 17216961135462248174)))) (.node (.node (.node (.leaf 2170205185142300190) (.leaf 11429747308416114334)) (.node (.leaf 6799976246779207262) (.leaf 16059518370053021406))) (.node (.node (.leaf 4485090715960753726) (.leaf 13744632839234567870)) (.node (.leaf 9114861777597660798) (.leaf 18374403900871474942)))))))) (.node (.node (.node (.node (.node (.node (.node (.leaf 72340172838076673) (.leaf 9331882296111890817)) (.node (.leaf 4702111234474983745) (.leaf 13961653357748797889))) (.node (.node (.leaf 2387225703656530209) (.leaf 11646767826930344353)) (.node (.leaf 7016996765293437281) (.leaf 16276538888567251425)))) (.node (.node (.node (.leaf 1229782938247303441) (.leaf 10489325061521117585)) (.node (.leaf 5859553999884210513) (.leaf 15119096123158024657))) (.node (.node (.leaf 3544668469065756977) (.leaf 12804210592339571121)) (.node (.leaf 8174439530702664049) (.leaf 17433981653976478193))))) (.node (.node (.node (.node (.leaf 651061555542690057) (.leaf 9910603678816504201)) (.node (.leaf 5280832617179597129) (.leaf 14540374740453411273))) (.node (.node (.leaf 2965947086361143593) (.leaf 12225489209634957737)) (.node (.leaf 7595718147998050665) (.leaf 16855260271271864809)))) (.node (.node (.node (.leaf 1808504320951916825) (.leaf 11068046444225730969)) (.node (.leaf 6438275382588823897) (.leaf 15697817505862638041))) (.node (.node (.leaf 4123389851770370361) (.leaf 13382931975044184505)) (.node (.leaf 8753160913407277433) (.leaf 18012703036681091577)))))) (.node (.node (.node (.node (.node (.leaf 361700864190383365) (.leaf 9621242987464197509)) (.node (.leaf 4991471925827290437) (.leaf 14251014049101104581))) (.node (.node (.leaf 2676586395008836901) (.leaf 11936128518282651045)) (.node (.leaf 7306357456645743973) (.leaf 16565899579919558117)))) (.node (.node (.node (.leaf 1519143629599610133) (.leaf 10778685752873424277)) (.node (.leaf 6148914691236517205) (.leaf 15408456814510331349))) (.node (.node (.leaf 3834029160418063669) (.leaf 13093571283691877813)) (.node (.leaf 8463800222054970741) (.leaf 17723342345328784885))))) (.node (.node (.node (.node (.leaf 940422246894996749) (.leaf 10199964370168810893)) (.node (.leaf 5570193308531903821) (.leaf 14829735431805717965))) (.node (.node (.leaf 3255307777713450285) (.leaf 12514849900987264429)) (.node (.leaf 7885078839350357357) (.leaf 17144620962624171501)))) (.node (.node (.node (.leaf 2097865012304223517) (.leaf 11357407135578037661)) (.node (.leaf 6727636073941130589) (.leaf 15987178197214944733))) (.node (.node (.leaf 4412750543122677053) (.leaf 13672292666396491197)) (.node (.leaf 9042521604759584125) (.leaf 18302063728033398269))))))) (.node (.node (.node (.node (.node (.node (.leaf 217020518514230019) (.leaf 9476562641788044163)) (.node (.leaf 4846791580151137091) (.leaf 14106333703424951235))) (.node (.node (.leaf 2531906049332683555) (.leaf 11791448172606497699)) (.node (.leaf 7161677110969590627) (.leaf 16421219234243404771)))) (.node (.node (.node (.leaf 1374463283923456787) (.leaf 10634005407197270931)) (.node (.leaf 6004234345560363859) (.leaf 15263776468834178003))) (.node (.node (.leaf 3689348814741910323) (.leaf 12948890938015724467)) (.node (.leaf 8319119876378817395) (.leaf 17578661999652631539))))) (.node (.node (.node (.node (.leaf 795741901218843403) (.leaf 10055284024492657547)) (.node (.leaf 5425512962855750475) (.leaf 14685055086129564619))) (.node (.node (.leaf 3110627432037296939) (.leaf 12370169555311111083)) (.node (.leaf 7740398493674204011) (.leaf 16999940616948018155)))) (.node (.node (.node (.leaf 1953184666628070171) (.leaf 11212726789901884315)) (.node (.leaf 6582955728264977243) (.leaf 15842497851538791387))) (.node (.node (.leaf 4268070197446523707) (.leaf 13527612320720337851)) (.node (.leaf 8897841259083430779) (.leaf 18157383382357244923)))))) (.node (.node (.node (.node (.node (.leaf 506381209866536711) (.leaf 9765923333140350855)) (.node (.leaf 5136152271503443783) (.leaf 14395694394777257927))) (.node (.node (.leaf 2821266740684990247) (.leaf 12080808863958804391)) (.node (.leaf 7451037802321897319) (.leaf 16710579925595711463)))) (.node (.node (.node (.leaf 1663823975275763479) (.leaf 10923366098549577623)) (.node (.leaf 6293595036912670551) (.leaf 15553137160186484695))) (.node (.node (.leaf 3978709506094217015) (.leaf 13238251629368031159)) (.node (.leaf 8608480567731124087) (.leaf 17868022691004938231))))) (.node (.node (.node (.node (.leaf 1085102592571150095) (.leaf 10344644715844964239)) (.node (.leaf 5714873654208057167) (.leaf 14974415777481871311))) (.node (.node (.leaf 3399988123389603631) (.leaf 12659530246663417775)) (.node (.leaf 8029759185026510703) (.leaf 17289301308300324847)))) (.node (.node (.node (.leaf 2242545357980376863) (.leaf 11502087481254191007)) (.node (.leaf 6872316419617283935) (.leaf 16131858542891098079))) (.node (.node (.leaf 4557430888798830399) (.leaf 13816973012072644543)) (.node (.leaf 9187201950435737471) (.leaf 18446744073709551615)))))))))
noncomputable def g0_1 : Tree := (.node (.node (.node (.node (.node (.node (.node (.node (.leaf 0) (.leaf 9259542123273814144)) (.node (.leaf 4629771061636907072) (.leaf 13889313184910721216))) (.node (.node (.leaf 2314885530818453536) (.leaf 11574427654092267680)) (.node (.leaf 6944656592455360608) (.leaf 16204198715729174752)))) (.node (.node (.node (.leaf 1157442765409226768) (.leaf 10416984888683040912)) (.node (.leaf 5787213827046133840) (.leaf 15046755950319947984))) (.node (.node (.leaf 3472328296227680304) (.leaf 12731870419501494448)) (.node (.leaf 8102099357864587376) (.leaf 17361641481138401520))))) (.node (.node (.node (.node (.leaf 578721382704613384) (.leaf 9838263505978427528)) (.node (.leaf 5208492444341520456) (.leaf 14468034567615334600))) (.node (.node (.leaf 2893606913523066920) (.leaf 12153149036796881064)) (.node (.leaf 7523377975159973992) (.leaf 16782920098433788136)))) (.node (.node (.node (.leaf 1736164148113840152) (.leaf 10995706271387654296)) (.node (.leaf 6365935209750747224) (.leaf 15625477333024561368))) (.node (.node (.leaf 4051049678932293688) (.leaf 13310591802206107832)) (.node (.leaf 8680820740569200760) (.leaf 17940362863843014904)))))) (.node (.node (.node (.node (.node (.leaf 289360691352306692) (.leaf 9548902814626120836)) (.node (.leaf 4919131752989213764) (.leaf 14178673876263027908))) (.node (.node (.leaf 2604246222170760228) (.leaf 11863788345444574372)) (.node (.leaf 7234017283807667300) (.leaf 16493559407081481444)))) (.node (.node (.node (.leaf 1446803456761533460) (.leaf 10706345580035347604)) (.node (.leaf 6076574518398440532) (.leaf 15336116641672254676))) (.node (.node (.leaf 3761688987579986996) (.leaf 13021231110853801140)) (.node (.leaf 8391460049216894068) (.leaf 17651002172490708212))))) (.node (.node (.node (.node (.leaf 868082074056920076) (.leaf 10127624197330734220)) (.node (.leaf 5497853135693827148) (.leaf 14757395258967641292))) (.node (.node (.leaf 3182967604875373612) (.leaf 12442509728149187756)) (.node (.leaf 7812738666512280684) (.leaf 17072280789786094828)))) (.node (.node (.node (.leaf 2025524839466146844) (.leaf 11285066962739960988)) (.node (.leaf 6655295901103053916) (.leaf 15914838024376868060))) (.node (.node (.leaf 4340410370284600380) (.leaf 13599952493558414524)) (.node (.leaf 8970181431921507452) (.leaf 18229723555195321596))))))) (.node (.node (.node (.node (.node (.node (.leaf 144680345676153346) (.leaf 9404222468949967490)) (.node (.leaf 4774451407313060418) (.leaf 14033993530586874562))) (.node (.node (.leaf 2459565876494606882) (.leaf 11719107999768421026)) (.node (.leaf 7089336938131513954) (.leaf 16348879061405328098)))) (.node (.node (.node (.leaf 1302123111085380114) (.leaf 10561665234359194258)) (.node (.leaf 5931894172722287186) (.leaf 15191436295996101330))) (.node (.node (.leaf 3617008641903833650) (.leaf 12876550765177647794)) (.node (.leaf 8246779703540740722) (.leaf 17506321826814554866))))) (.node (.node (.node (.node (.leaf 723401728380766730) (.leaf 9982943851654580874)) (.node (.leaf 5353172790017673802) (.leaf 14612714913291487946))) (.node (.node (.leaf 3038287259199220266) (.leaf 12297829382473034410)) (.node (.leaf 7668058320836127338) (.leaf 16927600444109941482)))) (.node (.node (.node (.leaf 1880844493789993498) (.leaf 11140386617063807642)) (.node (.leaf 6510615555426900570) (.leaf 15770157678700714714))) (.node (.node (.leaf 4195730024608447034) (.leaf 13455272147882261178)) (.node (.leaf 8825501086245354106) (.leaf 18085043209519168250)))))) (.node (.node (.node (.node (.node (.leaf 434041037028460038) (.leaf 9693583160302274182)) (.node (.leaf 5063812098665367110) (.leaf 14323354221939181254))) (.node (.node (.leaf 2748926567846913574) (.leaf 12008468691120727718)) (.node (.leaf 7378697629483820646) (.leaf 16638239752757634790)))) (.node (.node (.node (.leaf 1591483802437686806) (.leaf 10851025925711500950)) (.node (.leaf 6221254864074593878) (.leaf 15480796987348408022))) (.node (.node (.leaf 3906369333256140342) (.leaf 13165911456529954486)) (.node (.leaf 8536140394893047414) (.leaf 17795682518166861558))))) (.node (.node (.node (.node (.leaf 1012762419733073422) (.leaf 10272304543006887566)) (.node (.leaf 5642533481369980494) (.leaf 14902075604643794638))) (.node (.node (.leaf 3327647950551526958) (.leaf 12587190073825341102)) (.node (.leaf 7957419012188434030) (.leaf 17216961135462248174)))) (.node (.node (.node (.leaf 2170205185142300190) (.leaf 11429747308416114334)) (.node (.leaf 6799976246779207262) (.leaf 16059518370053021406))) (.node (.node (.leaf 4485090715960753726) (.leaf 13744632839234567870)) (.node (.leaf 9114861777597660798) (.leaf 18374403900871474942)))))))) (.node (.node (.node (.node (.node (.node (.node (.leaf 72340172838076673) (.leaf 9331882296111890817)) (.node (.leaf 4702111234474983745) (.leaf 13961653357748797889))) (.node (.node (.leaf 2387225703656530209) (.leaf 11646767826930344353)) (.node (.leaf 7016996765293437281) (.leaf 16276538888567251425)))) (.node (.node (.node (.leaf 1229782938247303441) (.leaf 10489325061521117585)) (.node (.leaf 5859553999884210513) (.leaf 15119096123158024657))) (.node (.node (.leaf 3544668469065756977) (.leaf 12804210592339571121)) (.node (.leaf 8174439530702664049) (.leaf 17433981653976478193))))) (.node (.node (.node (.node (.leaf 651061555542690057) (.leaf 9910603678816504201)) (.node (.leaf 5280832617179597129) (.leaf 14540374740453411273))) (.node (.node (.leaf 2965947086361143593) (.leaf 12225489209634957737)) (.node (.leaf 7595718147998050665) (.leaf 16855260271271864809)))) (.node (.node (.node (.leaf 1808504320951916825) (.leaf 11068046444225730969)) (.node (.leaf 6438275382588823897) (.leaf 15697817505862638041))) (.node (.node (.leaf 4123389851770370361) (.leaf 13382931975044184505)) (.node (.leaf 8753160913407277433) (.leaf 18012703036681091577)))))) (.node (.node (.node (.node (.node (.leaf 361700864190383365) (.leaf 9621242987464197509)) (.node (.leaf 4991471925827290437) (.leaf 14251014049101104581))) (.node (.node (.leaf 2676586395008836901) (.leaf 11936128518282651045)) (.node (.leaf 7306357456645743973) (.leaf 16565899579919558117)))) (.node (.node (.node (.leaf 1519143629599610133) (.leaf 10778685752873424277)) (.node (.leaf 6148914691236517205) (.leaf 15408456814510331349))) (.node (.node (.leaf 3834029160418063669) (.leaf 13093571283691877813)) (.node (.leaf 8463800222054970741) (.leaf 17723342345328784885))))) (.node (.node (.node (.node (.leaf 940422246894996749) (.leaf 10199964370168810893)) (.node (.leaf 5570193308531903821) (.leaf 14829735431805717965))) (.node (.node (.leaf 3255307777713450285) (.leaf 12514849900987264429)) (.node (.leaf 7885078839350357357) (.leaf 17144620962624171501)))) (.node (.node (.node (.leaf 2097865012304223517) (.leaf 11357407135578037661)) (.node (.leaf 6727636073941130589) (.leaf 15987178197214944733))) (.node (.node (.leaf 4412750543122677053) (.leaf 13672292666396491197)) (.node (.leaf 9042521604759584125) (.leaf 18302063728033398269))))))) (.node (.node (.node (.node (.node (.node (.leaf 217020518514230019) (.leaf 9476562641788044163)) (.node (.leaf 4846791580151137091) (.leaf 14106333703424951235))) (.node (.node (.leaf 2531906049332683555) (.leaf 11791448172606497699)) (.node (.leaf 7161677110969590627) (.leaf 16421219234243404771)))) (.node (.node (.node (.leaf 1374463283923456787) (.leaf 10634005407197270931)) (.node (.leaf 6004234345560363859) (.leaf 15263776468834178003))) (.node (.node (.leaf 3689348814741910323) (.leaf 12948890938015724467)) (.node (.leaf 8319119876378817395) (.leaf 17578661999652631539))))) (.node (.node (.node (.node (.leaf 795741901218843403) (.leaf 10055284024492657547)) (.node (.leaf 5425512962855750475) (.leaf 14685055086129564619))) (.node (.node (.leaf 3110627432037296939) (.leaf 12370169555311111083)) (.node (.leaf 7740398493674204011) (.leaf 16999940616948018155)))) (.node (.node (.node (.leaf 1953184666628070171) (.leaf 11212726789901884315)) (.node (.leaf 6582955728264977243) (.leaf 15842497851538791387))) (.node (.node (.leaf 4268070197446523707) (.leaf 13527612320720337851)) (.node (.leaf 8897841259083430779) (.leaf 18157383382357244923)))))) (.node (.node (.node (.node (.node (.leaf 506381209866536711) (.leaf 9765923333140350855)) (.node (.leaf 5136152271503443783) (.leaf 14395694394777257927))) (.node (.node (.leaf 2821266740684990247) (.leaf 12080808863958804391)) (.node (.leaf 7451037802321897319) (.leaf 16710579925595711463)))) (.node (.node (.node (.leaf 1663823975275763479) (.leaf 10923366098549577623)) (.node (.leaf 6293595036912670551) (.leaf 15553137160186484695))) (.node (.node (.leaf 3978709506094217015) (.leaf 13238251629368031159)) (.node (.leaf 8608480567731124087) (.leaf 17868022691004938231))))) (.node (.node (.node (.node (.leaf 1085102592571150095) (.leaf 10344644715844964239)) (.node (.leaf 5714873654208057167) (.leaf 14974415777481871311))) (.node (.node (.leaf 3399988123389603631) (.leaf 12659530246663417775)) (.node (.leaf 8029759185026510703) (.leaf 17289301308300324847)))) (.node (.node (.node (.leaf 2242545357980376863) (.leaf 11502087481254191007)) (.node (.leaf 6872316419617283935) (.leaf 16131858542891098079))) (.node (.node (.leaf 4557430888798830399) (.leaf 13816973012072644543)) (.node (.leaf 9187201950435737471) (.leaf 18446744073709551615)))))))))
noncomputable def g0_2 : Tree := (.node (.node (.node (.node (.node (.node (.node (.node (.leaf 0) (.leaf 9259542123273814144)) (.node (.leaf 4629771061636907072) (.leaf 13889313184910721216))) (.node (.node (.leaf 2314885530818453536) (.leaf 11574427654092267680)) (.node (.leaf 6944656592455360608) (.leaf 16204198715729174752)))) (.node (.node (.node (.leaf 1157442765409226768) (.leaf 10416984888683040912)) (.node (.leaf 5787213827046133840) (.leaf 15046755950319947984))) (.node (.node (.leaf 3472328296227680304) (.leaf 12731870419501494448)) (.node (.leaf 8102099357864587376) (.leaf 17361641481138401520))))) (.node (.node (.node (.node (.leaf 578721382704613384) (.leaf 9838263505978427528)) (.node (.leaf 5208492444341520456) (.leaf 14468034567615334600))) (.node (.node (.leaf 2893606913523066920) (.leaf 12153149036796881064)) (.node (.leaf 7523377975159973992) (.leaf 16782920098433788136)))) (.node (.node (.node (.leaf 1736164148113840152) (.leaf 10995706271387654296)) (.node (.leaf 6365935209750747224) (.leaf 15625477333024561368))) (.node (.node (.leaf 4051049678932293688) (.leaf 13310591802206107832)) (.node (.leaf 8680820740569200760) (.leaf 17940362863843014904)))))) (.node (.node (.node (.node (.node (.leaf 289360691352306692) (.leaf 9548902814626120836)) (.node (.leaf 4919131752989213764) (.leaf 14178673876263027908))) (.node (.node (.leaf 2604246222170760228) (.leaf 11863788345444574372)) (.node (.leaf 7234017283807667300) (.leaf 16493559407081481444)))) (.node (.node (.node (.leaf 1446803456761533460) (.leaf 10706345580035347604)) (.node (.leaf 6076574518398440532) (.leaf 15336116641672254676))) (.node (.node (.leaf 3761688987579986996) (.leaf 13021231110853801140)) (.node (.leaf 8391460049216894068) (.leaf 17651002172490708212))))) (.node (.node (.node (.node (.leaf 868082074056920076) (.leaf 10127624197330734220)) (.node (.leaf 5497853135693827148) (.leaf 14757395258967641292))) (.node (.node (.leaf 3182967604875373612) (.leaf 12442509728149187756)) (.node (.leaf 7812738666512280684) (.leaf 17072280789786094828)))) (.node (.node (.node (.leaf 2025524839466146844) (.leaf 11285066962739960988)) (.node (.leaf 6655295901103053916) (.leaf 15914838024376868060))) (.node (.node (.leaf 4340410370284600380) (.leaf 13599952493558414524)) (.node (.leaf 8970181431921507452) (.leaf 18229723555195321596))))))) (.node (.node (.node (.node (.node (.node (.leaf 144680345676153346) (.leaf 9404222468949967490)) (.node (.leaf 4774451407313060418) (.leaf 14033993530586874562))) (.node (.node (.leaf 2459565876494606882) (.leaf 11719107999768421026)) (.node (.leaf 7089336938131513954) (.leaf 16348879061405328098)))) (.node (.node (.node (.leaf 1302123111085380114) (.leaf 10561665234359194258)) (.node (.leaf 5931894172722287186) (.leaf 15191436295996101330))) (.node (.node (.leaf 3617008641903833650) (.leaf 12876550765177647794)) (.node (.leaf 8246779703540740722) (.leaf 17506321826814554866))))) (.node (.node (.node (.node (.leaf 723401728380766730) (.leaf 9982943851654580874)) (.node (.leaf 5353172790017673802) (.leaf 14612714913291487946))) (.node (.node (.leaf 3038287259199220266) (.leaf 12297829382473034410)) (.node (.leaf 7668058320836127338) (.leaf 16927600444109941482)))) (.node (.node (.node (.leaf 1880844493789993498) (.leaf 11140386617063807642)) (.node (.leaf 6510615555426900570) (.leaf 15770157678700714714))) (.node (.node (.leaf 4195730024608447034) (.leaf 13455272147882261178)) (.node (.leaf 8825501086245354106) (.leaf 18085043209519168250)))))) (.node (.node (.node (.node (.node (.leaf 434041037028460038) (.leaf 9693583160302274182)) (.node (.leaf 5063812098665367110) (.leaf 14323354221939181254))) (.node (.node (.leaf 2748926567846913574) (.leaf 12008468691120727718)) (.node (.leaf 7378697629483820646) (.leaf 16638239752757634790)))) (.node (.node (.node (.leaf 1591483802437686806) (.leaf 10851025925711500950)) (.node (.leaf 6221254864074593878) (.leaf 15480796987348408022))) (.node (.node (.leaf 3906369333256140342) (.leaf 13165911456529954486)) (.node (.leaf 8536140394893047414) (.leaf 17795682518166861558))))) (.node (.node (.node (.node (.leaf 1012762419733073422) (.leaf 10272304543006887566)) (.node (.leaf 5642533481369980494) (.leaf 14902075604643794638))) (.node (.node (.leaf 3327647950551526958) (.leaf 12587190073825341102)) (.node (.leaf 7957419012188434030) (.leaf 17216961135462248174)))) (.node (.node (.node (.leaf 2170205185142300190) (.leaf 11429747308416114334)) (.node (.leaf 6799976246779207262) (.leaf 16059518370053021406))) (.node (.node (.leaf 4485090715960753726) (.leaf 13744632839234567870)) (.node (.leaf 9114861777597660798) (.leaf 18374403900871474942)))))))) (.node (.node (.node (.node (.node (.node (.node (.leaf 72340172838076673) (.leaf 9331882296111890817)) (.node (.leaf 4702111234474983745) (.leaf 13961653357748797889))) (.node (.node (.leaf 2387225703656530209) (.leaf 11646767826930344353)) (.node (.leaf 7016996765293437281) (.leaf 16276538888567251425)))) (.node (.node (.node (.leaf 1229782938247303441) (.leaf 10489325061521117585)) (.node (.leaf 5859553999884210513) (.leaf 15119096123158024657))) (.node (.node (.leaf 3544668469065756977) (.leaf 12804210592339571121)) (.node (.leaf 8174439530702664049) (.leaf 17433981653976478193))))) (.node (.node (.node (.node (.leaf 651061555542690057) (.leaf 9910603678816504201)) (.node (.leaf 5280832617179597129) (.leaf 14540374740453411273))) (.node (.node (.leaf 2965947086361143593) (.leaf 12225489209634957737)) (.node (.leaf 7595718147998050665) (.leaf 16855260271271864809)))) (.node (.node (.node (.leaf 1808504320951916825) (.leaf 11068046444225730969)) (.node (.leaf 6438275382588823897) (.leaf 15697817505862638041))) (.node (.node (.leaf 4123389851770370361) (.leaf 13382931975044184505)) (.node (.leaf 8753160913407277433) (.leaf 18012703036681091577)))))) (.node (.node (.node (.node (.node (.leaf 361700864190383365) (.leaf 9621242987464197509)) (.node (.leaf 4991471925827290437) (.leaf 14251014049101104581))) (.node (.node (.leaf 2676586395008836901) (.leaf 11936128518282651045)) (.node (.leaf 7306357456645743973) (.leaf 16565899579919558117)))) (.node (.node (.node (.leaf 1519143629599610133) (.leaf 10778685752873424277)) (.node (.leaf 6148914691236517205) (.leaf 15408456814510331349))) (.node (.node (.leaf 3834029160418063669) (.leaf 13093571283691877813)) (.node (.leaf 8463800222054970741) (.leaf 17723342345328784885))))) (.node (.node (.node (.node (.leaf 940422246894996749) (.leaf 10199964370168810893)) (.node (.leaf 5570193308531903821) (.leaf 14829735431805717965))) (.node (.node (.leaf 3255307777713450285) (.leaf 12514849900987264429)) (.node (.leaf 7885078839350357357) (.leaf 17144620962624171501)))) (.node (.node (.node (.leaf 2097865012304223517) (.leaf 11357407135578037661)) (.node (.leaf 6727636073941130589) (.leaf 15987178197214944733))) (.node (.node (.leaf 4412750543122677053) (.leaf 13672292666396491197)) (.node (.leaf 9042521604759584125) (.leaf 18302063728033398269))))))) (.node (.node (.node (.node (.node (.node (.leaf 217020518514230019) (.leaf 9476562641788044163)) (.node (.leaf 4846791580151137091) (.leaf 14106333703424951235))) (.node (.node (.leaf 2531906049332683555) (.leaf 11791448172606497699)) (.node (.leaf 7161677110969590627) (.leaf 16421219234243404771)))) (.node (.node (.node (.leaf 1374463283923456787) (.leaf 10634005407197270931)) (.node (.leaf 6004234345560363859) (.leaf 15263776468834178003))) (.node (.node (.leaf 3689348814741910323) (.leaf 12948890938015724467)) (.node (.leaf 8319119876378817395) (.leaf 17578661999652631539))))) (.node (.node (.node (.node (.leaf 795741901218843403) (.leaf 10055284024492657547)) (.node (.leaf 5425512962855750475) (.leaf 14685055086129564619))) (.node (.node (.leaf 3110627432037296939) (.leaf 12370169555311111083)) (.node (.leaf 7740398493674204011) (.leaf 16999940616948018155)))) (.node (.node (.node (.leaf 1953184666628070171) (.leaf 11212726789901884315)) (.node (.leaf 6582955728264977243) (.leaf 15842497851538791387))) (.node (.node (.leaf 4268070197446523707) (.leaf 13527612320720337851)) (.node (.leaf 8897841259083430779) (.leaf 18157383382357244923)))))) (.node (.node (.node (.node (.node (.leaf 506381209866536711) (.leaf 9765923333140350855)) (.node (.leaf 5136152271503443783) (.leaf 14395694394777257927))) (.node (.node (.leaf 2821266740684990247) (.leaf 12080808863958804391)) (.node (.leaf 7451037802321897319) (.leaf 16710579925595711463)))) (.node (.node (.node (.leaf 1663823975275763479) (.leaf 10923366098549577623)) (.node (.leaf 6293595036912670551) (.leaf 15553137160186484695))) (.node (.node (.leaf 3978709506094217015) (.leaf 13238251629368031159)) (.node (.leaf 8608480567731124087) (.leaf 17868022691004938231))))) (.node (.node (.node (.node (.leaf 1085102592571150095) (.leaf 10344644715844964239)) (.node (.leaf 5714873654208057167) (.leaf 14974415777481871311))) (.node (.node (.leaf 3399988123389603631) (.leaf 12659530246663417775)) (.node (.leaf 8029759185026510703) (.leaf 17289301308300324847)))) (.node (.node (.node (.leaf 2242545357980376863) (.leaf 11502087481254191007)) (.node (.leaf 6872316419617283935) (.leaf 16131858542891098079))) (.node (.node (.leaf 4557430888798830399) (.leaf 13816973012072644543)) (.node (.leaf 9187201950435737471) (.leaf 18446744073709551615)))))))))
noncomputable def g0_3 : Tree := (.node (.node (.node (.node (.node (.node (.node (.node (.leaf 0) (.leaf 9259542123273814144)) (.node (.leaf 4629771061636907072) (.leaf 13889313184910721216))) (.node (.node (.leaf 2314885530818453536) (.leaf 11574427654092267680)) (.node (.leaf 6944656592455360608) (.leaf 16204198715729174752)))) (.node (.node (.node (.leaf 1157442765409226768) (.leaf 10416984888683040912)) (.node (.leaf 5787213827046133840) (.leaf 15046755950319947984))) (.node (.node (.leaf 3472328296227680304) (.leaf 12731870419501494448)) (.node (.leaf 8102099357864587376) (.leaf 17361641481138401520))))) (.node (.node (.node (.node (.leaf 578721382704613384) (.leaf 9838263505978427528)) (.node (.leaf 5208492444341520456) (.leaf 14468034567615334600))) (.node (.node (.leaf 2893606913523066920) (.leaf 12153149036796881064)) (.node (.leaf 7523377975159973992) (.leaf 16782920098433788136)))) (.node (.node (.node (.leaf 1736164148113840152) (.leaf 10995706271387654296)) (.node (.leaf 6365935209750747224) (.leaf 15625477333024561368))) (.node (.node (.leaf 4051049678932293688) (.leaf 13310591802206107832)) (.node (.leaf 8680820740569200760) (.leaf 17940362863843014904)))))) (.node (.node (.node (.node (.node (.leaf 289360691352306692) (.leaf 9548902814626120836)) (.node (.leaf 4919131752989213764) (.leaf 14178673876263027908))) (.node (.node (.leaf 2604246222170760228) (.leaf 11863788345444574372)) (.node (.leaf 7234017283807667300) (.leaf 16493559407081481444)))) (.node (.node (.node (.leaf 1446803456761533460) (.leaf 10706345580035347604)) (.node (.leaf 6076574518398440532) (.leaf 15336116641672254676))) (.node (.node (.leaf 3761688987579986996) (.leaf 13021231110853801140)) (.node (.leaf 8391460049216894068) (.leaf 17651002172490708212))))) (.node (.node (.node (.node (.leaf 868082074056920076) (.leaf 10127624197330734220)) (.node (.leaf 5497853135693827148) (.leaf 14757395258967641292))) (.node (.node (.leaf 3182967604875373612) (.leaf 12442509728149187756)) (.node (.leaf 7812738666512280684) (.leaf 17072280789786094828)))) (.node (.node (.node (.leaf 2025524839466146844) (.leaf 11285066962739960988)) (.node (.leaf 6655295901103053916) (.leaf 15914838024376868060))) (.node (.node (.leaf 4340410370284600380) (.leaf 13599952493558414524)) (.node (.leaf 8970181431921507452) (.leaf 18229723555195321596))))))) (.node (.node (.node (.node (.node (.node (.leaf 144680345676153346) (.leaf 9404222468949967490)) (.node (.leaf 4774451407313060418) (.leaf 14033993530586874562))) (.node (.node (.leaf 2459565876494606882) (.leaf 11719107999768421026)) (.node (.leaf 7089336938131513954) (.leaf 16348879061405328098)))) (.node (.node (.node (.leaf 1302123111085380114) (.leaf 10561665234359194258)) (.node (.leaf 5931894172722287186) (.leaf 15191436295996101330))) (.node (.node (.leaf 3617008641903833650) (.leaf 12876550765177647794)) (.node (.leaf 8246779703540740722) (.leaf 17506321826814554866))))) (.node (.node (.node (.node (.leaf 723401728380766730) (.leaf 9982943851654580874)) (.node (.leaf 5353172790017673802) (.leaf 14612714913291487946))) (.node (.node (.leaf 3038287259199220266) (.leaf 12297829382473034410)) (.node (.leaf 7668058320836127338) (.leaf 16927600444109941482)))) (.node (.node (.node (.leaf 1880844493789993498) (.leaf 11140386617063807642)) (.node (.leaf 6510615555426900570) (.leaf 15770157678700714714))) (.node (.node (.leaf 4195730024608447034) (.leaf 13455272147882261178)) (.node (.leaf 8825501086245354106) (.leaf 18085043209519168250)))))) (.node (.node (.node (.node (.node (.leaf 434041037028460038) (.leaf 9693583160302274182)) (.node (.leaf 5063812098665367110) (.leaf 14323354221939181254))) (.node (.node (.leaf 2748926567846913574) (.leaf 12008468691120727718)) (.node (.leaf 7378697629483820646) (.leaf 16638239752757634790)))) (.node (.node (.node (.leaf 1591483802437686806) (.leaf 10851025925711500950)) (.node (.leaf 6221254864074593878) (.leaf 15480796987348408022))) (.node (.node (.leaf 3906369333256140342) (.leaf 13165911456529954486)) (.node (.leaf 8536140394893047414) (.leaf 17795682518166861558))))) (.node (.node (.node (.node (.leaf 1012762419733073422) (.leaf 10272304543006887566)) (.node (.leaf 5642533481369980494) (.leaf 14902075604643794638))) (.node (.node (.leaf 3327647950551526958) (.leaf 12587190073825341102)) (.node (.leaf 7957419012188434030) (.leaf 17216961135462248174)))) (.node (.node (.node (.leaf 2170205185142300190) (.leaf 11429747308416114334)) (.node (.leaf 6799976246779207262) (.leaf 16059518370053021406))) (.node (.node (.leaf 4485090715960753726) (.leaf 13744632839234567870)) (.node (.leaf 9114861777597660798) (.leaf 18374403900871474942)))))))) (.node (.node (.node (.node (.node (.node (.node (.leaf 72340172838076673) (.leaf 9331882296111890817)) (.node (.leaf 4702111234474983745) (.leaf 13961653357748797889))) (.node (.node (.leaf 2387225703656530209) (.leaf 11646767826930344353)) (.node (.leaf 7016996765293437281) (.leaf 16276538888567251425)))) (.node (.node (.node (.leaf 1229782938247303441) (.leaf 10489325061521117585)) (.node (.leaf 5859553999884210513) (.leaf 15119096123158024657))) (.node (.node (.leaf 3544668469065756977) (.leaf 12804210592339571121)) (.node (.leaf 8174439530702664049) (.leaf 17433981653976478193))))) (.node (.node (.node (.node (.leaf 651061555542690057) (.leaf 9910603678816504201)) (.node (.leaf 5280832617179597129) (.leaf 14540374740453411273))) (.node (.node (.leaf 2965947086361143593) (.leaf 12225489209634957737)) (.node (.leaf 7595718147998050665) (.leaf 16855260271271864809)))) (.node (.node (.node (.leaf 1808504320951916825) (.leaf 11068046444225730969)) (.node (.leaf 6438275382588823897) (.leaf 15697817505862638041))) (.node (.node (.leaf 4123389851770370361) (.leaf 13382931975044184505)) (.node (.leaf 8753160913407277433) (.leaf 18012703036681091577)))))) (.node (.node (.node (.node (.node (.leaf 361700864190383365) (.leaf 9621242987464197509)) (.node (.leaf 4991471925827290437) (.leaf 14251014049101104581))) (.node (.node (.leaf 2676586395008836901) (.leaf 11936128518282651045)) (.node (.leaf 7306357456645743973) (.leaf 16565899579919558117)))) (.node (.node (.node (.leaf 1519143629599610133) (.leaf 10778685752873424277)) (.node (.leaf 6148914691236517205) (.leaf 15408456814510331349))) (.node (.node (.leaf 3834029160418063669) (.leaf 13093571283691877813)) (.node (.leaf 8463800222054970741) (.leaf 17723342345328784885))))) (.node (.node (.node (.node (.leaf 940422246894996749) (.leaf 10199964370168810893)) (.node (.leaf 5570193308531903821) (.leaf 14829735431805717965))) (.node (.node (.leaf 3255307777713450285) (.leaf 12514849900987264429)) (.node (.leaf 7885078839350357357) (.leaf 17144620962624171501)))) (.node (.node (.node (.leaf 2097865012304223517) (.leaf 11357407135578037661)) (.node (.leaf 6727636073941130589) (.leaf 15987178197214944733))) (.node (.node (.leaf 4412750543122677053) (.leaf 13672292666396491197)) (.node (.leaf 9042521604759584125) (.leaf 18302063728033398269))))))) (.node (.node (.node (.node (.node (.node (.leaf 217020518514230019) (.leaf 9476562641788044163)) (.node (.leaf 4846791580151137091) (.leaf 14106333703424951235))) (.node (.node (.leaf 2531906049332683555) (.leaf 11791448172606497699)) (.node (.leaf 7161677110969590627) (.leaf 16421219234243404771)))) (.node (.node (.node (.leaf 1374463283923456787) (.leaf 10634005407197270931)) (.node (.leaf 6004234345560363859) (.leaf 15263776468834178003))) (.node (.node (.leaf 3689348814741910323) (.leaf 12948890938015724467)) (.node (.leaf 8319119876378817395) (.leaf 17578661999652631539))))) (.node (.node (.node (.node (.leaf 795741901218843403) (.leaf 10055284024492657547)) (.node (.leaf 5425512962855750475) (.leaf 14685055086129564619))) (.node (.node (.leaf 3110627432037296939) (.leaf 12370169555311111083)) (.node (.leaf 7740398493674204011) (.leaf 16999940616948018155)))) (.node (.node (.node (.leaf 1953184666628070171) (.leaf 11212726789901884315)) (.node (.leaf 6582955728264977243) (.leaf 15842497851538791387))) (.node (.node (.leaf 4268070197446523707) (.leaf 13527612320720337851)) (.node (.leaf 8897841259083430779) (.leaf 18157383382357244923)))))) (.node (.node (.node (.node (.node (.leaf 506381209866536711) (.leaf 9765923333140350855)) (.node (.leaf 5136152271503443783) (.leaf 14395694394777257927))) (.node (.node (.leaf 2821266740684990247) (.leaf 12080808863958804391)) (.node (.leaf 7451037802321897319) (.leaf 16710579925595711463)))) (.node (.node (.node (.leaf 1663823975275763479) (.leaf 10923366098549577623)) (.node (.leaf 6293595036912670551) (.leaf 15553137160186484695))) (.node (.node (.leaf 3978709506094217015) (.leaf 13238251629368031159)) (.node (.leaf 8608480567731124087) (.leaf 17868022691004938231))))) (.node (.node (.node (.node (.leaf 1085102592571150095) (.leaf 10344644715844964239)) (.node (.leaf 5714873654208057167) (.leaf 14974415777481871311))) (.node (.node (.leaf 3399988123389603631) (.leaf 12659530246663417775)) (.node (.leaf 8029759185026510703) (.leaf 17289301308300324847)))) (.node (.node (.node (.leaf 2242545357980376863) (.leaf 11502087481254191007)) (.node (.leaf 6872316419617283935) (.leaf 16131858542891098079))) (.node (.node (.leaf 4557430888798830399) (.leaf 13816973012072644543)) (.node (.leaf 9187201950435737471) (.leaf 18446744073709551615)))))))))
noncomputable def g0 : G := ⟨g0_0, g0_1, g0_2, g0_3, ⟨81985529216486895, 18364758544493064720, 17336226011405279623⟩⟩

noncomputable def g1_0 : Tree := (.node (.node (.node (.node (.node (.node (.node (.node (.leaf 14278101215416621909) (.leaf 9259541972949958693)) (.node (.leaf 10568509891283205085) (.leaf 6722860768884211904))) (.node (.node (.leaf 5488201772333802303) (.leaf 11562182891301529504)) (.node (.leaf 8523635663364449265) (.leaf 16204198715729174752)))) (.node (.node (.node (.leaf 3174611567167129441) (.leaf 10416984887084617872)) (.node (.leaf 6187762480859189370) (.leaf 15046755947333603536))) (.node (.node (.leaf 4304954675819330148) (.leaf 12731870419496251568)) (.node (.leaf 15777748120506438654) (.leaf 1606642609712852999))))) (.node (.node (.node (.node (.leaf 3137259660450158452) (.leaf 9838196433655203976)) (.node (.leaf 14822926941681090137) (.leaf 14468034567615313096))) (.node (.node (.leaf 2098723052198212461) (.leaf 6301846873043413007)) (.node (.leaf 9875237785003888972) (.leaf 8013086166971115752)))) (.node (.node (.node (.leaf 9596150635171902807) (.leaf 10978535647674398237)) (.node (.leaf 2079612155676044964) (.leaf 493275932431800536))) (.node (.node (.leaf 17497535521443014291) (.leaf 13263584987174189240)) (.node (.leaf 12088885014993620653) (.leaf 2591889016420366584)))))) (.node (.node (.node (.node (.node (.leaf 888761791429347149) (.leaf 9548761853430367258)) (.node (.leaf 3488245864956089509) (.leaf 14157281069363389892))) (.node (.node (.leaf 8463235977886638787) (.leaf 11863788345444539958)) (.node (.leaf 5976509903087043345) (.leaf 16493377985702192356)))) (.node (.node (.node (.leaf 7090666512367761253) (.leaf 10706209240586949691)) (.node (.leaf 12496519594050413726) (.leaf 15276268024749114473))) (.node (.node (.leaf 7054923550174040519) (.leaf 13021231109125733238)) (.node (.leaf 13810451676643444954) (.leaf 1438042543562749172))))) (.node (.node (.node (.node (.leaf 244816233070321933) (.leaf 10095172111634991360)) (.node (.leaf 5715458358537376379) (.leaf 14732062511063682252))) (.node (.node (.leaf 2311549880035989100) (.leaf 4948519256706690220)) (.node (.leaf 16092232168033961731) (.leaf 17030688463922719980)))) (.node (.node (.node (.leaf 305143554533395803) (.leaf 11285032877879499932)) (.node (.leaf 17598561870010560951) (.leaf 15862765153675762908))) (.node (.node (.leaf 1804333929759945337) (.leaf 3800119704400215228)) (.node (.leaf 9074707876018001618) (.leaf 18229461867871141116))))))) (.node (.node (.node (.node (.node (.node (.leaf 4774751511831642919) (.leaf 1117599132442329670)) (.node (.leaf 7634566096954990990) (.leaf 14033993527785043394))) (.node (.node (.leaf 10747577460688964682) (.leaf 11685049342902816009)) (.node (.leaf 3980041836302000751) (.leaf 9089075824432382690)))) (.node (.node (.node (.leaf 18403459670265887389) (.leaf 1951908646733648530)) (.node (.leaf 15434242902865876947) (.leaf 6544353487618953759))) (.node (.node (.leaf 7969548133027311467) (.leaf 6939399081419744946)) (.node (.leaf 9310931046090712199) (.leaf 5472501312328889074))))) (.node (.node (.node (.node (.leaf 10013524360357363283) (.leaf 728046225811212938)) (.node (.leaf 4505422530333409191) (.leaf 993829638823267018))) (.node (.node (.leaf 7744832915855911143) (.leaf 12265013357147040426)) (.node (.leaf 4236799484612534120) (.leaf 1723447324718066410)))) (.node (.node (.node (.leaf 1908681975267859844) (.leaf 11140386616141060673)) (.node (.leaf 15184432778880288130) (.leaf 8131886684414663176))) (.node (.node (.leaf 1022067314332670339) (.leaf 8987701314872851130)) (.node (.leaf 15624851147202584956) (.leaf 18016081837658084090)))))) (.node (.node (.node (.node (.node (.leaf 8737491446822901004) (.leaf 9682887111182026374)) (.node (.leaf 6219575263920117342) (.leaf 55950602429449790))) (.node (.node (.leaf 3446452797486283825) (.leaf 11965884605776963122)) (.node (.leaf 2840575413638524496) (.leaf 16638239752757581286)))) (.node (.node (.node (.leaf 17305123763362367884) (.leaf 186502008098166422)) (.node (.leaf 2270895638991943925) (.leaf 2905502177094429654))) (.node (.node (.leaf 16231096697947792728) (.leaf 13114964485734119094)) (.node (.leaf 8176877292301992116) (.leaf 17795432290352297718))))) (.node (.node (.node (.node (.leaf 5860399637232283408) (.leaf 10272171502099926594)) (.node (.leaf 13047066844213488711) (.leaf 14850381206470424782))) (.node (.node (.leaf 5803995015802870336) (.leaf 12572271898365155502)) (.node (.leaf 7886361707017051666) (.leaf 17216749028492142318)))) (.node (.node (.node (.leaf 7554211712069878573) (.leaf 4988191865088929364)) (.node (.leaf 4043172626386483802) (.leaf 16059518366680757470))) (.node (.node (.leaf 1286262940385831293) (.leaf 518123681218477758)) (.node (.leaf 16312532378559745059) (.leaf 18329386596285958256)))))))) (.node (.node (.node (.node (.node (.node (.node (.leaf 2213184519853703220) (.leaf 379570661825675649)) (.node (.leaf 11482081331110774020) (.leaf 5386667127077946665))) (.node (.node (.leaf 4351169165098904901) (.leaf 11607360758950411681)) (.node (.leaf 13593422576633939750) (.leaf 3954690304457641185)))) (.node (.node (.node (.leaf 13929158875487416083) (.leaf 10489325061521117585)) (.node (.leaf 7355182313617415807) (.leaf 15119096123158024657))) (.node (.node (.leaf 9755881024999377746) (.leaf 12783944394016382058)) (.node (.leaf 12897900139431394091) (.leaf 17433815627706200375))))) (.node (.node (.node (.node (.leaf 5998553295913092174) (.leaf 3244962867480984713)) (.node (.leaf 7671403259683095206) (.leaf 14540162533333518793))) (.node (.node (.leaf 7179560800518876609) (.leaf 12225489209627290025)) (.node (.leaf 3652832753562612595) (.leaf 16855260271262296553)))) (.node (.node (.node (.leaf 4435006204760645201) (.leaf 11030328796692166973)) (.node (.leaf 8929656919997863724) (.leaf 15672358722143342553))) (.node (.node (.leaf 12420205236795054368) (.leaf 13356056612322523577)) (.node (.leaf 5597529150842506063) (.leaf 18012540308944124409)))))) (.node (.node (.node (.node (.node (.leaf 3385072003290125170) (.leaf 1738163530240429445)) (.node (.leaf 11399466868532953533) (.leaf 14250854966112929221))) (.node (.node (.leaf 6865925546838844775) (.leaf 11925150390908827204)) (.node (.leaf 2696916455683769371) (.leaf 16565899060228465948)))) (.node (.node (.node (.leaf 11771376910954352299) (.leaf 2491929874346083851)) (.node (.leaf 8222400187195054358) (.leaf 15352021078531495381))) (.node (.node (.leaf 6813882373178376706) (.leaf 1472595395208547253)) (.node (.leaf 837853674155624981) (.leaf 17685906170442806614))))) (.node (.node (.node (.node (.leaf 14556846947319759206) (.leaf 10199964133937847437)) (.node (.leaf 8841305987043336858) (.leaf 5191749938206592461))) (.node (.node (.leaf 5045152419195220976) (.leaf 6101723301467237752)) (.node (.leaf 10866450136017041736) (.leaf 4829833445812071747)))) (.node (.node (.node (.leaf 7226321659133759384) (.leaf 8619092118293028171)) (.node (.leaf 13879811658370209247) (.leaf 3708676763133749038))) (.node (.node (.leaf 10038515044772229745) (.leaf 13672145331830504737)) (.node (.leaf 13441727596727005894) (.leaf 18302062877629873661))))))) (.node (.node (.node (.node (.node (.node (.leaf 6353432411371594300) (.leaf 9463770921916656186)) (.node (.leaf 8297043555684154861) (.leaf 14106132492784354084))) (.node (.node (.leaf 17872143238460158768) (.leaf 1559269819211259811)) (.node (.leaf 9387536820192093185) (.leaf 16421016339974054666)))) (.node (.node (.node (.leaf 6643643186061449890) (.leaf 10634005281720436792)) (.node (.leaf 17273641464625189983) (.leaf 15223806581588349710))) (.node (.node (.leaf 15940746235851063065) (.leaf 12948789782945928115)) (.node (.leaf 17085845827864409556) (.leaf 17528699436764703731))))) (.node (.node (.node (.node (.leaf 5125652370086635799) (.leaf 2402513769777023371)) (.node (.leaf 5288501653172739447) (.leaf 14685055086129525195))) (.node (.node (.leaf 4107916503576873625) (.leaf 12370103581940165427)) (.node (.leaf 13240732317295253577) (.leaf 6623646383996660715)))) (.node (.node (.node (.leaf 4620171358879958775) (.leaf 11212594846133230491)) (.node (.leaf 16976346347439558629) (.leaf 15842345423149456347))) (.node (.node (.leaf 612872051386313826) (.leaf 13527468014114159547)) (.node (.leaf 13732283691907768497) (.leaf 18157156882945634811)))))) (.node (.node (.node (.node (.node (.leaf 4606535338338033694) (.leaf 3568902724697665541)) (.node (.leaf 7287987432111315070) (.leaf 14395693548656792600))) (.node (.node (.leaf 3882718868308221280) (.leaf 8693996389225441058)) (.node (.leaf 17811131290386014336) (.leaf 16710579923548890922)))) (.node (.node (.node (.leaf 2652164950219142293) (.leaf 10923365673341392791)) (.node (.leaf 1165877432753418287) (.leaf 15552994824959056343))) (.node (.node (.leaf 5650445219974051637) (.leaf 3078130409150068537)) (.node (.leaf 11375486424451469422) (.leaf 7424738101495854868))))) (.node (.node (.node (.node (.leaf 3001365531602987688) (.leaf 10319311701645220751)) (.node (.leaf 9188915469827591011) (.leaf 14974317445782687695))) (.node (.node (.leaf 7827677768156020264) (.leaf 12659529522172899247)) (.node (.leaf 16724305572672020884) (.leaf 683684168187842287)))) (.node (.node (.node (.leaf 89338362568811270) (.leaf 4728632959758737311)) (.node (.leaf 16892451888206786275) (.leaf 2758027534974050141))) (.node (.node (.leaf 6439699610469558364) (.leaf 8412652939537006527)) (.node (.leaf 12123134044348744053) (.leaf 1368916165836931071)))))))))
noncomputable def g1_1 : Tree := (.node (.node (.node (.node (.node (.node (.node (.node (.leaf 15151291317692915549) (.leaf 7746332647366230144)) (.node (.leaf 6479108342714642522) (.leaf 13850098003185156153))) (.node (.node (.leaf 7473407727504530123) (.leaf 11574427428170276956)) (.node (.leaf 7867987196732747366) (.leaf 4963069447148413027)))) (.node (.node (.node (.leaf 17824764802087011609) (.leaf 8381638785939547024)) (.node (.leaf 17290347829022801002) (.leaf 15046589922127448784))) (.node (.node (.leaf 8048886871080838671) (.leaf 75445945674776752)) (.node (.leaf 12115037338681452305) (.leaf 17308468484625228338))))) (.node (.node (.node (.node (.leaf 16289784029110917180) (.leaf 9838130149591648392)) (.node (.leaf 4685330896539521989) (.leaf 3768736392787118280))) (.node (.node (.leaf 9329295740974678899) (.leaf 8117923770672899240)) (.node (.leaf 17478146013906012595) (.leaf 16782919112369694952)))) (.node (.node (.node (.leaf 10053074346443727313) (.leaf 3412488498624108613)) (.node (.leaf 603425183975942793) (.leaf 15581916359573076184))) (.node (.node (.leaf 5090970998869098338) (.leaf 13310591497263429645)) (.node (.leaf 801078373976573956) (.leaf 17890598967561106936)))))) (.node (.node (.node (.node (.node (.leaf 4210900206270520455) (.leaf 9548809356129500548)) (.node (.leaf 16157036838012022720) (.leaf 7019919986127062037))) (.node (.node (.leaf 5647761835086471054) (.leaf 8260731622176105514)) (.node (.leaf 18278179158568773679) (.leaf 16493559403457602788)))) (.node (.node (.node (.leaf 2558594589613372405) (.leaf 10676757722127963284)) (.node (.leaf 390836905005580006) (.leaf 1717115103739172052))) (.node (.node (.leaf 14479163061594050598) (.leaf 13021039795830568116)) (.node (.leaf 9051162825159709433) (.leaf 17650755005703127540))))) (.node (.node (.node (.node (.leaf 4995889642944932789) (.leaf 10127490056912124432)) (.node (.leaf 1940418440444470102) (.leaf 7335320136541129838))) (.node (.node (.leaf 13426911538237456275) (.leaf 12442509255702785196)) (.node (.leaf 11002373364292142989) (.leaf 463568310104812780)))) (.node (.node (.node (.leaf 1754379483752786747) (.leaf 11243077089024017564)) (.node (.leaf 12504098434626934113) (.leaf 15886971999014884316))) (.node (.node (.leaf 2866139901496854384) (.leaf 1813298282099848380)) (.node (.leaf 2427853163444829463) (.leaf 7204911664726736124))))))) (.node (.node (.node (.node (.node (.node (.leaf 2655721068910615641) (.leaf 9370163996767978069)) (.node (.leaf 4384765382981520705) (.leaf 14033993530586832478))) (.node (.node (.leaf 6318411136143970261) (.leaf 3144253738017989282)) (.node (.leaf 8565207934468092069) (.leaf 6066034521916995298)))) (.node (.node (.node (.leaf 11760638337333289297) (.leaf 10561665234359182854)) (.node (.leaf 12880394987070303320) (.leaf 4857082526064332145))) (.node (.node (.leaf 8797646042875121648) (.leaf 770874964379415145)) (.node (.leaf 5374587177390791876) (.leaf 7562373115141091963))))) (.node (.node (.node (.node (.leaf 5919262765631262766) (.leaf 1984550913444579978)) (.node (.leaf 6517650320599408790) (.leaf 14612714913291487847))) (.node (.node (.leaf 6928369655220809593) (.leaf 12297671052788476470)) (.node (.leaf 11607743922821309714) (.leaf 16879749083888806437)))) (.node (.node (.node (.leaf 8936454754396675406) (.leaf 11140386617063791159)) (.node (.leaf 11869647602083666498) (.leaf 15770157099963439711))) (.node (.node (.leaf 14507848584120405053) (.leaf 8339182969964640954)) (.node (.leaf 4448797498521030831) (.leaf 18084828801043987194)))))) (.node (.node (.node (.node (.node (.leaf 17013266906187966765) (.leaf 9693583160302274182)) (.node (.leaf 17378602011200604842) (.leaf 14284305065144534726))) (.node (.node (.leaf 1228094904569780580) (.leaf 2321788842593134108)) (.node (.leaf 8708972963367959810) (.leaf 16606714555366041172)))) (.node (.node (.node (.leaf 3874034985201229341) (.leaf 10840843236857517598)) (.node (.leaf 3669394609629787135) (.leaf 15455182760910945142))) (.node (.node (.leaf 5296962992867080061) (.leaf 2182757112458884790)) (.node (.leaf 11893325167876257290) (.leaf 17744171747016832758))))) (.node (.node (.node (.node (.leaf 4258954296374366372) (.leaf 10236133908987915556)) (.node (.leaf 3523609179139036783) (.leaf 14901879891563006926))) (.node (.node (.leaf 2946071094238533846) (.leaf 12587190073825320993)) (.node (.leaf 14706870293892035020) (.leaf 17216961135462248174)))) (.node (.node (.node (.leaf 959138224819847754) (.leaf 11415955034557258027)) (.node (.leaf 1316022333852923842) (.leaf 16059518370040059401))) (.node (.node (.leaf 2294796956142448609) (.leaf 13744632173514636990)) (.node (.leaf 16254972512175880659) (.leaf 18374403235136274174)))))))) (.node (.node (.node (.node (.node (.node (.node (.leaf 8450574530080869305) (.leaf 171456200435645313)) (.node (.leaf 18212534027057744286) (.leaf 13909998825461891521))) (.node (.node (.leaf 4497051092160489596) (.leaf 7666148143647531425)) (.node (.leaf 14128954147845074483) (.leaf 9142628841617954878)))) (.node (.node (.node (.leaf 13231132890671867719) (.leaf 3283543667488352589)) (.node (.leaf 905348191992909751) (.leaf 8922142254212174087))) (.node (.node (.leaf 3562762720086367523) (.leaf 12789123452547178289)) (.node (.leaf 9649832707653516498) (.leaf 1509098338055701233))))) (.node (.node (.node (.node (.leaf 5697659267030396469) (.leaf 9910501935330920795)) (.node (.leaf 7591434741608043762) (.leaf 312940567628759497))) (.node (.node (.leaf 10173506743529116939) (.leaf 12206067435419838889)) (.node (.leaf 5981508581035607474) (.leaf 16855260271271864809)))) (.node (.node (.node (.leaf 13563197394171829843) (.leaf 11068046444225711257)) (.node (.leaf 39793957453916233) (.leaf 15650619866208917977))) (.node (.node (.leaf 537130741546370628) (.leaf 13338740403691960577)) (.node (.leaf 4136132886691623182) (.leaf 9221676564053883252)))))) (.node (.node (.node (.node (.node (.leaf 1083228079632164845) (.leaf 8180091104725927301)) (.node (.leaf 2689617331067506328) (.leaf 14251014049101104456))) (.node (.node (.leaf 702971330124273130) (.leaf 4586253926403810360)) (.node (.leaf 8609374831617337205) (.leaf 16565899579919557929)))) (.node (.node (.node (.leaf 6215307252365785970) (.leaf 10772211527375492501)) (.node (.leaf 1153396731654533250) (.leaf 6905660718027571746))) (.node (.node (.leaf 5560886066694191211) (.leaf 13044209108594791436)) (.node (.leaf 12724981032252007141) (.leaf 17723342345328784660))))) (.node (.node (.node (.node (.leaf 13136439074284922296) (.leaf 2990196146981145964)) (.node (.leaf 9495940810714960529) (.leaf 14829735428802596301))) (.node (.node (.leaf 2112902327391915666) (.leaf 3075304650525445293)) (.node (.leaf 6634092246082256879) (.leaf 17078535915748322565)))) (.node (.node (.node (.leaf 6718767059311671648) (.leaf 11357407135578010013)) (.node (.leaf 10463939877414376003) (.leaf 15952556772114882013))) (.node (.node (.leaf 18120172010473092123) (.leaf 13635700917656731069)) (.node (.leaf 10440348127702778950) (.leaf 7277044032523173117))))))) (.node (.node (.node (.node (.node (.node (.leaf 4056645401014906919) (.leaf 1592068817473995651)) (.node (.leaf 4643048576618698518) (.leaf 14081129138819897283))) (.node (.node (.leaf 279207028750111546) (.leaf 6819312553817252671)) (.node (.leaf 1054385466930641120) (.leaf 16392507893255955427)))) (.node (.node (.node (.leaf 11971350538596047976) (.leaf 10633866868728794924)) (.node (.leaf 7103401327691501196) (.leaf 15263776468825330558))) (.node (.node (.leaf 14653701298551567691) (.leaf 12908639316261253907)) (.node (.leaf 3175031488961185362) (.leaf 17518989304589972467))))) (.node (.node (.node (.node (.leaf 5457455025967264869) (.leaf 2056839408857942923)) (.node (.leaf 5246504955275038368) (.leaf 3732300350910024480))) (.node (.node (.leaf 11692816231817697088) (.leaf 12370168998575975339)) (.node (.leaf 9278774268416324318) (.leaf 16947399350830230507)))) (.node (.node (.node (.leaf 4807028620846094088) (.leaf 11212726510721932187)) (.node (.leaf 6374140936167381763) (.leaf 15810200184884550619))) (.node (.node (.leaf 7378418438433488666) (.leaf 13486312897733639099)) (.node (.leaf 15120306154224670239) (.leaf 4034094948175084283)))))) (.node (.node (.node (.node (.node (.leaf 2476228837992321560) (.leaf 9739183210352838520)) (.node (.leaf 6578034444512160847) (.leaf 14395495858013063111))) (.node (.node (.leaf 9953813360280142644) (.leaf 12080713206447154559)) (.node (.leaf 8778213458036743626) (.leaf 16653721177133224423)))) (.node (.node (.node (.leaf 15294793111448109911) (.leaf 10923257246889690263)) (.node (.leaf 1425870214704442743) (.leaf 15553137160186436567))) (.node (.node (.leaf 5836676221447270810) (.leaf 2789899909744046672)) (.node (.leaf 7991467482874279342) (.leaf 5545945412100683767))))) (.node (.node (.node (.node (.leaf 5125165857869744237) (.leaf 10344644591284081039)) (.node (.leaf 1527720369863220913) (.leaf 14937260432015958735))) (.node (.node (.leaf 7834933729929040168) (.leaf 12615620147360513658)) (.node (.leaf 3384627027863740838) (.leaf 5832143856262246192)))) (.node (.node (.node (.leaf 6147521386450471168) (.leaf 11502087481254191007)) (.node (.leaf 15368267675105716954) (.leaf 16079899417345196255))) (.node (.node (.leaf 3960435971307569571) (.leaf 13769121535879165887)) (.node (.leaf 17967438265524656551) (.leaf 18446492642029038924)))))))))
noncomputable def g1_2 : Tree := (.node (.node (.node (.node (.node (.node (.node (.node (.leaf 418610922813607999) (.leaf 9187397311335006336)) (.node (.leaf 17246156893450128877) (.leaf 13889161452295471296))) (.node (.node (.leaf 15785795354416648367) (.leaf 11574427654092267680)) (.node (.leaf 10976244623160235412) (.leaf 16150154996214670560)))) (.node (.node (.node (.leaf 17071591638753875250) (.leaf 10416984351810677904)) (.node (.leaf 3063584647341407412) (.leaf 8092461452869292240))) (.node (.node (.leaf 164770942754994216) (.leaf 12698881292523013444)) (.node (.leaf 15029674549388207832) (.leaf 17361640974322775024))))) (.node (.node (.node (.node (.leaf 1977590861052868777) (.leaf 4217771171018541192)) (.node (.leaf 5501097740102751601) (.leaf 14467841053568824520))) (.node (.node (.leaf 16537006300642324071) (.leaf 12153048523951679598)) (.node (.leaf 8748270962241914649) (.leaf 16782919411226175561)))) (.node (.node (.node (.leaf 2454264460683920428) (.leaf 547354878190065816)) (.node (.leaf 10743097565901008129) (.leaf 15566147682174359555))) (.node (.node (.leaf 10133487277845093242) (.leaf 13310591802206073016)) (.node (.leaf 17499980909796751918) (.leaf 6642642291234568245)))))) (.node (.node (.node (.node (.node (.leaf 3470673703905036664) (.leaf 9527096199187019578)) (.node (.leaf 18061382379967885578) (.leaf 5144453023757765828))) (.node (.node (.leaf 7933787279953944818) (.leaf 4369797873101415588)) (.node (.leaf 3441922484459555181) (.leaf 16440079158460605668)))) (.node (.node (.node (.leaf 4998751529663855079) (.leaf 10696211886809309024)) (.node (.leaf 11779817209314708340) (.leaf 15336116641672229332))) (.node (.node (.leaf 4846806264228352969) (.leaf 13021038696318940198)) (.node (.leaf 4538072241018317828) (.leaf 501121068626670836))))) (.node (.node (.node (.node (.leaf 5220330606224022685) (.leaf 976309754509728652)) (.node (.leaf 15730041520384702077) (.leaf 3804640232541544140))) (.node (.node (.leaf 12417205122761082986) (.leaf 3219137689174191276)) (.node (.leaf 10322004677242687602) (.leaf 1219473280963720940)))) (.node (.node (.node (.leaf 11985230818021962547) (.leaf 11285066962739960988)) (.node (.leaf 17884174107549540229) (.leaf 8796617338341054736))) (.node (.node (.leaf 8892657732039722294) (.leaf 13599852436775507527)) (.node (.leaf 17434973388678334172) (.leaf 18188628205827260989))))))) (.node (.node (.node (.node (.node (.node (.leaf 4703377392006594599) (.leaf 2846981342779015960)) (.node (.leaf 7645853280519314757) (.leaf 14033993530586874368))) (.node (.node (.leaf 14586084748482841510) (.leaf 11693642052034077346)) (.node (.leaf 8387749545867572824) (.leaf 16348879059498754786)))) (.node (.node (.node (.leaf 1658519364583587018) (.leaf 113314098051696018)) (.node (.leaf 6569508516457618972) (.leaf 15191436294419004114))) (.node (.node (.leaf 16003935290637797948) (.leaf 12876550765177627143)) (.node (.leaf 4000967241481707266) (.leaf 356614445771846180))))) (.node (.node (.node (.node (.leaf 8480732430268856752) (.leaf 9982943593956543031)) (.node (.leaf 9930685568951310609) (.leaf 633541668121489938))) (.node (.node (.leaf 1576385645128468545) (.leaf 12297828877260728915)) (.node (.leaf 15707560102499380866) (.leaf 16866238899187018287)))) (.node (.node (.node (.leaf 11100528511846153917) (.leaf 1904523027277585050)) (.node (.leaf 9113928249388106237) (.leaf 926293306887559898))) (.node (.node (.leaf 9819974086926914097) (.leaf 6465685526196435642)) (.node (.leaf 15918492883885244279) (.leaf 4918206748948101882)))))) (.node (.node (.node (.node (.node (.leaf 17642926497174457901) (.leaf 1379313253117277318)) (.node (.leaf 5651943405849146125) (.leaf 14323174998815655622))) (.node (.node (.leaf 14928987329588586582) (.leaf 1309886301321668130)) (.node (.leaf 15088757361533791917) (.leaf 16638014352863594470)))) (.node (.node (.node (.leaf 1482045317300927566) (.leaf 2564402025822099350)) (.node (.leaf 9248692259302481779) (.leaf 15480796987348363222))) (.node (.node (.leaf 17849175191317397092) (.leaf 13165810745922172216)) (.node (.leaf 3835168511681213010) (.leaf 17795451066674203894))))) (.node (.node (.node (.node (.leaf 14498399565263406217) (.leaf 10272212184030154270)) (.node (.leaf 14072207379698896482) (.leaf 14902075602328538830))) (.node (.node (.leaf 3904790196022837992) (.leaf 2162482836369451182)) (.node (.leaf 10635879619538167720) (.leaf 17216961135448189463)))) (.node (.node (.node (.leaf 12540549923531341966) (.leaf 11429746852453916318)) (.node (.leaf 10943514697220475978) (.leaf 1864171502755463472))) (.node (.node (.leaf 8600230741426662834) (.leaf 13700722742855384766)) (.node (.leaf 16104460805949731827) (.leaf 18374403140662263550)))))))) (.node (.node (.node (.node (.node (.node (.node (.leaf 10557347271115411321) (.leaf 829085830268289337)) (.node (.leaf 6189078388908547678) (.leaf 13913239081933980097))) (.node (.node (.leaf 2301732077734457167) (.leaf 2105511154325103009)) (.node (.leaf 13502377921325012328) (.leaf 16234742349901717985)))) (.node (.node (.node (.leaf 9664382445687864783) (.leaf 10454703639385706829)) (.node (.leaf 6530841028756962186) (.leaf 7408732797140613387))) (.node (.node (.leaf 1137581826995213444) (.leaf 12757485746205602225)) (.node (.leaf 5782178285279040545) (.leaf 8937940954140242417))))) (.node (.node (.node (.node (.leaf 4260747365975220256) (.leaf 3569432049377609253)) (.node (.leaf 739086694533698619) (.leaf 5286321929493006611))) (.node (.node (.leaf 7713913835782311005) (.leaf 12225318785332652411)) (.node (.leaf 9330667100695790718) (.leaf 16797557898688293865)))) (.node (.node (.node (.leaf 4545511353725994239) (.leaf 11067910102216972579)) (.node (.leaf 13435519054259870792) (.leaf 4816949282308565977))) (.node (.node (.leaf 12044202113726206337) (.leaf 13361539876809980345)) (.node (.leaf 7844134167036640453) (.leaf 18012432554689914105)))))) (.node (.node (.node (.node (.node (.leaf 2017810662954676305) (.leaf 9621139632648783196)) (.node (.leaf 4618541332237854047) (.leaf 14212618271076977174))) (.node (.node (.leaf 6872023313223160334) (.leaf 11936128277754848677)) (.node (.leaf 2427700496991542068) (.leaf 2947014304672933663)))) (.node (.node (.node (.leaf 1757289166138867671) (.leaf 6383060027066830229)) (.node (.leaf 3679844240635162616) (.leaf 15408456153079613725))) (.node (.node (.leaf 4061525217120859733) (.leaf 13057823961649595317)) (.node (.leaf 1051448635702983676) (.leaf 17689283870179587573))))) (.node (.node (.node (.node (.leaf 8535374120264028639) (.leaf 10199883003984776589)) (.node (.leaf 7053043154311860113) (.leaf 14829511129208869581))) (.node (.node (.leaf 12485174986907725157) (.leaf 9056085385807732838)) (.node (.leaf 14391722252354120828) (.leaf 17144620061586963776)))) (.node (.node (.node (.leaf 11665189725811517141) (.leaf 11357233902367120767)) (.node (.leaf 5891769733024765482) (.leaf 15987177267891356381))) (.node (.node (.leaf 8342312787548666715) (.leaf 7147790383705865498)) (.node (.leaf 3269807066269726063) (.leaf 18302062881911411034))))))) (.node (.node (.node (.node (.node (.node (.leaf 240372116291219568) (.leaf 9439970837336895363)) (.node (.leaf 14732783252875345346) (.leaf 5059030336184239043))) (.node (.node (.leaf 10829832904965058201) (.leaf 6098898240992945059)) (.node (.leaf 13673380441280998661) (.leaf 16365342050870319843)))) (.node (.node (.node (.leaf 1258812637397455366) (.leaf 7463470715477660563)) (.node (.leaf 3382100052990310570) (.leaf 15263567909506275283))) (.node (.node (.leaf 7233067280319115305) (.leaf 12948890935482325683)) (.node (.leaf 7292378736698136912) (.leaf 17578661999652587113))))) (.node (.node (.node (.node (.leaf 7999383185794683857) (.leaf 10055284023163623563)) (.node (.leaf 5725903739473925719) (.leaf 14685054252892640971))) (.node (.node (.leaf 5964865010640177893) (.leaf 2714383783434103723)) (.node (.leaf 12375174012548344140) (.leaf 674142842434816235)))) (.node (.node (.node (.leaf 8164975396918405419) (.leaf 11202531542563496603)) (.node (.leaf 7920624903756914037) (.leaf 2340143218714729435))) (.node (.node (.leaf 16962189448358546260) (.leaf 5601084559949806523)) (.node (.leaf 11819665474959074137) (.leaf 18157140386260913659)))))) (.node (.node (.node (.node (.node (.leaf 6920616740227114558) (.leaf 9765847464666236807)) (.node (.leaf 14188486597662926268) (.leaf 3111080356136470287))) (.node (.node (.leaf 9414639853995187464) (.leaf 4118397443760333735)) (.node (.leaf 4399462414885741890) (.leaf 16661884754624767764)))) (.node (.node (.node (.leaf 9948764957275630) (.leaf 6785120990546859927)) (.node (.leaf 2616894265420338111) (.leaf 15553136601840736021))) (.node (.node (.leaf 8237115061376805219) (.leaf 13238251629368031159)) (.node (.leaf 12653742184179458486) (.leaf 6050577268784756727))))) (.node (.node (.node (.node (.leaf 5341049430843712455) (.leaf 7534398548360859535)) (.node (.leaf 3647650928449320811) (.leaf 2758120313262690166))) (.node (.node (.leaf 8716807721053291498) (.leaf 7111095505733201673)) (.node (.leaf 7567532632788523116) (.leaf 1596789881704489455)))) (.node (.node (.node (.leaf 6318007356429880091) (.leaf 11475909672764923039)) (.node (.leaf 2984614831415989470) (.leaf 6726371264096596550))) (.node (.node (.leaf 5457983775018052419) (.leaf 13816973012064321355)) (.node (.leaf 6213945434802104844) (.leaf 18446578043695660897)))))))))
noncomputable def g1_3 : Tree := (.node (.node (.node (.node (.node (.node (.node (.node (.leaf 7626856558264787209) (.leaf 9224076276208271488)) (.node (.leaf 7979651684475492920) (.leaf 2757049802416505024))) (.node (.node (.leaf 5873790227424413460) (.leaf 7323028978781875872)) (.node (.leaf 12671856136301542248) (.leaf 16204198237209382368)))) (.node (.node (.node (.leaf 12140519147363710682) (.leaf 10410510962910036507)) (.node (.leaf 2980746501363660231) (.leaf 15046755950313872592))) (.node (.node (.leaf 3072706564904026523) (.leaf 12698283637797177776)) (.node (.leaf 2445880164950543197) (.leaf 17295776333355085947))))) (.node (.node (.node (.node (.leaf 8345953766276680685) (.leaf 5586865122464790301)) (.node (.leaf 3992513827136221286) (.leaf 14467920218406045732))) (.node (.node (.leaf 6423186449351363629) (.leaf 1200394743031834670)) (.node (.leaf 5246594905386610521) (.leaf 16782920098433788136)))) (.node (.node (.node (.leaf 14590032025375147317) (.leaf 10968684265596557464)) (.node (.leaf 5831468078580108825) (.leaf 288291777186158719))) (.node (.node (.leaf 239995887080843244) (.leaf 3366567958669698423)) (.node (.leaf 15060474774730182094) (.leaf 17940362860877205240)))))) (.node (.node (.node (.node (.node (.leaf 15591795273480673030) (.leaf 974010209494387844)) (.node (.leaf 13345033277000240622) (.leaf 2721516029095449613))) (.node (.node (.leaf 12777044287174421586) (.leaf 8876775407259788366)) (.node (.leaf 11488234923547798267) (.leaf 16456967660109096164)))) (.node (.node (.node (.leaf 8659417015521297482) (.leaf 10706196046450300052)) (.node (.leaf 6744358050297265721) (.leaf 15336116639340221452))) (.node (.node (.leaf 6907597849745456215) (.leaf 13021231110847158306)) (.node (.leaf 8046527305008152370) (.leaf 17651002172477814551))))) (.node (.node (.node (.node (.leaf 1435577840511689684) (.leaf 10127476862766451726)) (.node (.leaf 9675666378976560146) (.leaf 14725587910134345999))) (.node (.node (.leaf 6209691398705397826) (.leaf 12442348098604281004)) (.node (.leaf 16093903564362564880) (.leaf 3914451528454302784)))) (.node (.node (.node (.leaf 7678372862768460666) (.leaf 476427366059893404)) (.node (.leaf 4449644717018454943) (.leaf 15867401794219728092))) (.node (.node (.leaf 13708388277379738947) (.leaf 7763287373768342716)) (.node (.leaf 12013236025704439668) (.leaf 8790177890252422396))))))) (.node (.node (.node (.node (.node (.node (.leaf 1812838076864958710) (.leaf 9404222069513679746)) (.node (.leaf 2566363195096056586) (.leaf 9175550117595038402))) (.node (.node (.leaf 11822580713511112884) (.leaf 1919158660272792226)) (.node (.leaf 6405486540829858916) (.leaf 16348879059022963426)))) (.node (.node (.node (.leaf 12926796859609864519) (.leaf 10547028020174164626)) (.node (.leaf 370583399429277384) (.leaf 3115033892098331346))) (.node (.node (.leaf 6823679289284120406) (.leaf 12840521965658878475)) (.node (.leaf 2109220307161358420) (.leaf 17506321823341671154))))) (.node (.node (.node (.node (.leaf 9018241702449846489) (.leaf 9979714583940205194)) (.node (.leaf 28056072353447334) (.leaf 1786463172330048065))) (.node (.node (.leaf 8451616700752806633) (.leaf 12297829167724651605)) (.node (.leaf 3804539451514330970) (.leaf 16927350851084872426)))) (.node (.node (.node (.leaf 11703834387824532857) (.leaf 11129408923583355546)) (.node (.leaf 15780421415038434677) (.leaf 1528931228837364022))) (.node (.node (.leaf 11747703716549723436) (.leaf 8555355237907085907)) (.node (.leaf 18007163229463905163) (.leaf 18049649930221058810)))))) (.node (.node (.node (.node (.node (.leaf 11260279653427398172) (.leaf 5514242585013129606)) (.node (.leaf 14255432288582809454) (.leaf 14323246791922206406))) (.node (.node (.leaf 3462596319419287825) (.leaf 5451060507901863456)) (.node (.leaf 12343814888718014148) (.leaf 16580023907112063206)))) (.node (.node (.node (.leaf 3176800799463686405) (.leaf 10850864297495139990)) (.node (.leaf 11223787651573601588) (.leaf 5969194574331565782))) (.node (.node (.leaf 17014340613537335660) (.leaf 13165911454322636470)) (.node (.leaf 13419473003395818654) (.leaf 17754586155656294914))))) (.node (.node (.node (.node (.leaf 2051499591386313868) (.leaf 10240418705298035533)) (.node (.leaf 13689048808072698974) (.leaf 14856195183439957601))) (.node (.node (.leaf 13280352383575390376) (.leaf 913731196810313390)) (.node (.leaf 789888825222722108) (.leaf 17178749807848779283)))) (.node (.node (.node (.leaf 8226242274703897393) (.leaf 11386616765788692086)) (.node (.leaf 2599700945330208536) (.leaf 16059518366982735070))) (.node (.node (.leaf 15821932300371471996) (.leaf 4376942204652751550)) (.node (.leaf 9773867452346399145) (.leaf 18309703135007760894)))))))) (.node (.node (.node (.node (.node (.node (.node (.leaf 6002371535346759114) (.leaf 6581871548985067649)) (.node (.leaf 17516006069626801153) (.leaf 3729475004350886081))) (.node (.node (.leaf 15542233834382066520) (.leaf 4296892543571960225)) (.node (.leaf 2454271697685708408) (.leaf 16276538888567251251)))) (.node (.node (.node (.leaf 4554551103810975814) (.leaf 10489325061521117585)) (.node (.leaf 12191674370685058417) (.leaf 1500210847047668177))) (.node (.node (.leaf 9587080804415514693) (.leaf 3612363185930351025)) (.node (.leaf 13874329178781036351) (.leaf 17397671378213728753))))) (.node (.node (.node (.node (.leaf 9298060857100096331) (.leaf 9910590319253621039)) (.node (.leaf 5003301858772365426) (.leaf 14506120555201636041))) (.node (.node (.leaf 7151319624094333758) (.leaf 2310814415230445950)) (.node (.leaf 8103601470843722437) (.leaf 4893698956601190698)))) (.node (.node (.node (.leaf 4698983257186416815) (.leaf 11068046134978092441)) (.node (.leaf 9108879184766200280) (.leaf 15697816956097124669))) (.node (.node (.leaf 9849564207496063949) (.leaf 5744827006050744613)) (.node (.leaf 18199179714807550457) (.leaf 8820011772277390889)))))) (.node (.node (.node (.node (.node (.leaf 1269591813163799687) (.leaf 3568404663070112389)) (.node (.leaf 9006744524531265904) (.leaf 7909785245065764902))) (.node (.node (.leaf 14150046552234203413) (.leaf 11936128032951316389)) (.node (.leaf 11531303438873987315) (.leaf 16508542654875952613)))) (.node (.node (.node (.leaf 6543211743289339833) (.leaf 10760108404407047573)) (.node (.leaf 10033824791549536359) (.leaf 15353006241548162773))) (.node (.node (.leaf 17098780887981697898) (.leaf 13062443009992471851)) (.node (.leaf 8423415614428221309) (.leaf 17723342345328742645))))) (.node (.node (.node (.node (.leaf 1116972932830891592) (.leaf 10199833445808311591)) (.node (.leaf 3416584504966407566) (.leaf 14829735431805682761))) (.node (.node (.leaf 5133239770599630189) (.leaf 12514746546894253485)) (.node (.leaf 803414836240830344) (.leaf 3844083145073835784)))) (.node (.node (.node (.leaf 18126554614987825192) (.leaf 11331662070813662621)) (.node (.leaf 13940742641006049395) (.leaf 15987178193691729373))) (.node (.node (.leaf 2180024067580780346) (.leaf 5638608703469746621)) (.node (.leaf 6123303768190627331) (.leaf 18302063728033398269))))))) (.node (.node (.node (.node (.node (.node (.leaf 7213496299305760420) (.leaf 9448630648395989123)) (.node (.leaf 16815329474804792425) (.leaf 14057919296026428355))) (.node (.node (.leaf 4210091986017541087) (.leaf 4791321104177341347)) (.node (.leaf 2293350442766707226) (.leaf 16421218426789509603)))) (.node (.node (.node (.leaf 12546718809723074143) (.leaf 10633933938941465491)) (.node (.leaf 7085694829781247674) (.leaf 15216206394611192787))) (.node (.node (.leaf 6282332597495669473) (.leaf 1347618001556583347)) (.node (.leaf 7504606819633693282) (.leaf 212781288064753207))))) (.node (.node (.node (.node (.leaf 5098951467860125362) (.leaf 6127840447265737476)) (.node (.leaf 5307892728220082420) (.leaf 14684953487073135563))) (.node (.node (.leaf 15137895287466952373) (.leaf 7382714013478246315)) (.node (.leaf 13569180250046849840) (.leaf 8641258832363711467)))) (.node (.node (.node (.leaf 13983217752028301968) (.leaf 1628943637555157867)) (.node (.leaf 7442690186379353701) (.leaf 4494834165442599756))) (.node (.node (.leaf 11666331970393437264) (.leaf 13527611551921165647)) (.node (.leaf 1009746936813241840) (.leaf 6699962047536036638)))))) (.node (.node (.node (.node (.node (.leaf 7792047952498432471) (.leaf 2920349644949784342)) (.node (.leaf 1708385187394703903) (.leaf 14395694392411670331))) (.node (.node (.leaf 13794929055988795277) (.leaf 119248253657982887)) (.node (.leaf 715621976867004074) (.leaf 16678613029472430055)))) (.node (.node (.node (.leaf 4110439006300432209) (.leaf 10923245149753939863)) (.node (.leaf 4648027905617013603) (.leaf 5393015761895151367))) (.node (.node (.leaf 4961516270765208667) (.leaf 13221469267997177271)) (.node (.leaf 16990304625968384184) (.leaf 17868022691004938231))))) (.node (.node (.node (.node (.leaf 9524585190937093068) (.leaf 10312274663549865871)) (.node (.leaf 619998965700786875) (.leaf 14936416652824112591))) (.node (.node (.leaf 3310298337295925641) (.leaf 6966979589435255841)) (.node (.leaf 8143671939269704667) (.leaf 17289301308300269039)))) (.node (.node (.node (.leaf 12065760137675677551) (.leaf 4080154837614815836)) (.node (.leaf 7019918240839897668) (.leaf 567252782149481507))) (.node (.node (.leaf 15462444369723452672) (.leaf 2864108765668425663)) (.node (.leaf 1984473680931445344) (.leaf 18400300702552238591)))))))))
noncomputable def g1 : G := ⟨g1_0, g1_1, g1_2, g1_3, ⟨9234670427606159517, 14018022389591589336, 10150983828753685491⟩⟩

noncomputable def g2_0 : Tree := (.node (.node (.node (.node (.node (.node (.node (.node (.leaf 515374532567702357) (.leaf 1100718898633328371)) (.node (.leaf 15900771850878401501) (.leaf 16599413333317729381))) (.node (.node (.leaf 5488456859021747132) (.leaf 12761416449726428373)) (.node (.leaf 8523635487262270449) (.leaf 2995931363921135671)))) (.node (.node (.node (.leaf 3174611567167129531) (.leaf 15310945539661092052)) (.node (.leaf 6179599706534620282) (.leaf 4485126717327854141))) (.node (.node (.leaf 4256378254033566440) (.leaf 3811858518793004918)) (.node (.leaf 1438327588883174358) (.leaf 971886854388507738))))) (.node (.node (.node (.node (.leaf 4722379484926871183) (.leaf 11477249164867624940)) (.node (.leaf 14822926941681090137) (.leaf 4878013966753081886))) (.node (.node (.leaf 17663163192593789805) (.leaf 10646804937009002620)) (.node (.leaf 9881993184444944671) (.leaf 17515641918825998074)))) (.node (.node (.node (.leaf 11818958526255949655) (.leaf 14189455526457123247)) (.node (.leaf 2079558915258101412) (.leaf 252771379307657930))) (.node (.node (.leaf 1500749645023009002) (.leaf 15710738475572711678)) (.node (.leaf 12088884082991091373) (.leaf 6626578736636831438)))))) (.node (.node (.node (.node (.node (.leaf 888694600961023878) (.leaf 11699997361187891958)) (.node (.leaf 3488195287421217701) (.leaf 18136205753014403892))) (.node (.node (.leaf 13146989485956604585) (.leaf 14523188500993159201)) (.node (.leaf 5400049150783619857) (.leaf 16084007866668649699)))) (.node (.node (.node (.leaf 7071244291123759552) (.leaf 12010504439011046481)) (.node (.leaf 18048613651402023960) (.leaf 11062890285237140440))) (.node (.node (.leaf 7055096175110214073) (.leaf 11591052038918254013)) (.node (.leaf 13810451998732175057) (.leaf 13285424978791603070))))) (.node (.node (.node (.node (.leaf 2413750253412802821) (.leaf 18189156173276862556)) (.node (.leaf 5715458842526541691) (.leaf 6740265088598133805))) (.node (.node (.leaf 2331537904450704916) (.leaf 16413669949201191028)) (.node (.leaf 8598242389893072686) (.leaf 10817407795505598089)))) (.node (.node (.node (.leaf 15248087118148701531) (.leaf 7253456751901393104)) (.node (.leaf 2538524716084812983) (.leaf 13478082334316474766))) (.node (.node (.leaf 1822608367056827001) (.leaf 2501897082227348287)) (.node (.leaf 9074708038401988306) (.leaf 12471351339156777272))))))) (.node (.node (.node (.node (.node (.node (.leaf 2757139059158319396) (.leaf 10094095083693841971)) (.node (.leaf 10733120757451093685) (.leaf 14762697078849496816))) (.node (.node (.leaf 10747693977527459354) (.leaf 7282984030107693341)) (.node (.leaf 16662093085097288303) (.leaf 3249174192486833359)))) (.node (.node (.node (.leaf 18398956070638456303) (.leaf 383045407118569263)) (.node (.leaf 15434242902865899219) (.leaf 13449777437988056377))) (.node (.node (.leaf 12365061369341228651) (.leaf 17848866127838401224)) (.node (.leaf 9311078380648834183) (.leaf 12113163493399442834))))) (.node (.node (.node (.node (.leaf 9980197066590600787) (.leaf 1679098104908865704)) (.node (.leaf 15025893932727304091) (.leaf 5966938038369070600))) (.node (.node (.leaf 7750743888554941159) (.leaf 17076768883999029273)) (.node (.leaf 4237007653076109928) (.leaf 10570232958832868755)))) (.node (.node (.node (.leaf 1548394610668641668) (.leaf 5254697042392126612)) (.node (.leaf 15156848788511458690) (.leaf 11817103722246410505))) (.node (.node (.leaf 1035859588191530371) (.leaf 17752599023844517454)) (.node (.leaf 15841023929316368655) (.leaf 16801973257432948836)))))) (.node (.node (.node (.node (.node (.leaf 14213693243075637260) (.leaf 12695430250837006157)) (.node (.leaf 6203355268387165790) (.leaf 15959157585379220427))) (.node (.node (.leaf 2005300918657129521) (.leaf 7622533098373915806)) (.node (.leaf 2840575413638524496) (.leaf 5135551854049183928)))) (.node (.node (.node (.leaf 17305123763371870475) (.leaf 14480422521422370375)) (.node (.leaf 2270922027271010549) (.leaf 9494465188619687398))) (.node (.node (.leaf 16231096251281324376) (.leaf 11110407714254548971)) (.node (.leaf 8203335940112793780) (.leaf 1902564682203799534))))) (.node (.node (.node (.node (.leaf 5860399636259190288) (.leaf 11624465852747114762)) (.node (.leaf 13047067235062525078) (.leaf 11410232722690713844))) (.node (.node (.leaf 5803898260524481344) (.leaf 197318172746586520)) (.node (.leaf 7886361707004133906) (.leaf 14622852267758606743)))) (.node (.node (.node (.leaf 7554211712069878732) (.leaf 8700757870034613676)) (.node (.leaf 3899057441049442823) (.leaf 1311454530227172828))) (.node (.node (.leaf 1286263133659369085) (.leaf 9697886158687171367)) (.node (.leaf 16312522656397938467) (.leaf 3057796521131517996)))))))) (.node (.node (.node (.node (.node (.node (.node (.leaf 13382111595732593092) (.leaf 7492748456821005349)) (.node (.leaf 9824761066293506308) (.leaf 1616025137823541985))) (.node (.node (.leaf 4351169066314667845) (.leaf 14107148777687074858)) (.node (.leaf 17412395894347302690) (.leaf 712909849356172355)))) (.node (.node (.node (.leaf 13929158875487416209) (.leaf 17987668021536910099)) (.node (.leaf 7361656238089821750) (.leaf 18367791121425111770))) (.node (.node (.leaf 9755881993078295378) (.leaf 11006874033342278305)) (.node (.leaf 12887660387650978859) (.leaf 13589198028483837104))))) (.node (.node (.node (.node (.leaf 5998553295778874554) (.leaf 17198107988912835035)) (.node (.leaf 7671403259683095146) (.leaf 8429061901369319301))) (.node (.node (.leaf 5016988554450906049) (.leaf 15509501377427600067)) (.node (.leaf 3668876827247951435) (.leaf 9291546045010935831)))) (.node (.node (.node (.leaf 4441761711583828539) (.leaf 15378040436227286348)) (.node (.leaf 3574368864128259952) (.leaf 7173483423969898569))) (.node (.node (.leaf 12446382325709510944) (.leaf 2194661736039817415)) (.node (.leaf 5597529150842506063) (.leaf 13663981809201167674)))))) (.node (.node (.node (.node (.node (.leaf 3363117970077970802) (.leaf 2426282417257000)) (.node (.leaf 14859919910086492640) (.leaf 8762849589805347711))) (.node (.node (.leaf 6865925602673386855) (.leaf 6321349694918272927)) (.node (.leaf 2699041085810795291) (.leaf 16503941313619677870)))) (.node (.node (.node (.leaf 8091936015392699563) (.leaf 14301335608416619838)) (.node (.leaf 8222429726755379478) (.leaf 8030035560299454108))) (.node (.node (.leaf 6813882178445230845) (.leaf 17495784896219793990)) (.node (.leaf 862904779579132758) (.leaf 2119669202419783445))))) (.node (.node (.node (.node (.leaf 9080501686274769315) (.leaf 9634580055874016095)) (.node (.leaf 15064436071045571226) (.leaf 8486462907395002291))) (.node (.node (.leaf 5045152419010889026) (.leaf 9154918535354256520)) (.node (.leaf 12301317208304286024) (.leaf 2647589665200647027)))) (.node (.node (.node (.leaf 11261546925257723676) (.leaf 16429284665006759383)) (.node (.leaf 13879812272550576095) (.leaf 4652878071206941955))) (.node (.node (.leaf 10038515044783436401) (.leaf 2900904109193995205)) (.node (.leaf 12642338663892176326) (.leaf 498059074078958850))))))) (.node (.node (.node (.node (.node (.node (.leaf 6397342507738456636) (.leaf 5289091834237898418)) (.node (.leaf 8297044023830740461) (.leaf 18291224299443062462))) (.node (.node (.leaf 17872143558108001072) (.leaf 4963379809475396710)) (.node (.leaf 9405992492231550977) (.leaf 9006362752937739458)))) (.node (.node (.node (.leaf 6643395795945240482) (.leaf 14396387212517676151)) (.node (.leaf 17274737677722145933) (.leaf 288627619518700176))) (.node (.node (.leaf 1745400210379259818) (.leaf 11197634234817429353)) (.node (.leaf 17085845827863136526) (.leaf 3700314776566642004))))) (.node (.node (.node (.node (.leaf 12907699616956808260) (.leaf 10296780135465068874)) (.node (.leaf 14655988878103371260) (.leaf 10510888980089963916))) (.node (.node (.leaf 4126665376373803673) (.leaf 7996200690569258431)) (.node (.leaf 13201929452439410905) (.leaf 17653934312405242089)))) (.node (.node (.node (.leaf 10385007580332785911) (.leaf 14021032366557692583)) (.node (.leaf 16976346407569100773) (.leaf 15628403797557595387))) (.node (.node (.leaf 612913835260865634) (.leaf 788494820905898849)) (.node (.leaf 13724507945676116657) (.leaf 10304954590747379172)))))) (.node (.node (.node (.node (.node (.leaf 4606535338338088930) (.leaf 8905621483347237837)) (.node (.leaf 10890867033733896285) (.leaf 6065068410511611186))) (.node (.node (.leaf 3882718871229291872) (.leaf 15695752954215722022)) (.node (.leaf 6930356831029606784) (.leaf 4003399638180926118)))) (.node (.node (.node (.leaf 12601183875080500373) (.leaf 9570081742841179531)) (.node (.leaf 1165917105366331634) (.leaf 5457136470482975529))) (.node (.node (.leaf 5624384595381876533) (.leaf 8850006251001926143)) (.node (.leaf 11375486424451469422) (.leaf 3422395129018720364))))) (.node (.node (.node (.node (.leaf 16187905240538876042) (.leaf 4080829204256669057)) (.node (.leaf 11927104042849422179) (.leaf 14933294105350796025))) (.node (.node (.leaf 7823174168526552777) (.leaf 6554745825355069453)) (.node (.leaf 16724305573215183169) (.leaf 12973418812985143197)))) (.node (.node (.node (.leaf 116359746457106694) (.leaf 3144375559949858742)) (.node (.leaf 16892599222764959352) (.leaf 4805307104049104888))) (.node (.node (.leaf 6450395659584563200) (.leaf 16053996354454684638)) (.node (.leaf 12236459874599960949) (.leaf 10174949169854305696)))))))))
noncomputable def g2_1 : Tree := (.node (.node (.node (.node (.node (.node (.node (.node (.leaf 8378003879015669755) (.leaf 15297430582608134839)) (.node (.leaf 6479107956167585918) (.leaf 15043216507513710041))) (.node (.node (.leaf 7473440710824303307) (.leaf 12788801857322573571)) (.node (.leaf 7902890096277573990) (.leaf 2735121685460140073)))) (.node (.node (.node (.leaf 17824764896580355353) (.leaf 8087567307154171077)) (.node (.leaf 17290374217301533494) (.leaf 15952278792334609585))) (.node (.node (.leaf 8039316720396335375) (.leaf 10794634390475709221)) (.node (.leaf 14853423824215708689) (.leaf 6998178152615385472))))) (.node (.node (.node (.node (.leaf 13047192039699027516) (.leaf 1618241399980247961)) (.node (.leaf 4685330411208191376) (.leaf 15128804037586233933))) (.node (.node (.leaf 3997033783845760159) (.leaf 15183755394546862451)) (.node (.leaf 17478146015399223969) (.leaf 9389089123383553808)))) (.node (.node (.node (.leaf 12430812219031878865) (.leaf 9541728726152771379)) (.node (.leaf 603425182418021001) (.leaf 7138616638309947950))) (.node (.node (.leaf 5074122082685057890) (.leaf 5132747794676711647)) (.node (.leaf 807270844939081204) (.leaf 18349567184220570695)))))) (.node (.node (.node (.node (.node (.leaf 4210954082339187847) (.leaf 15549701035379205695)) (.node (.leaf 16162581675962077033) (.leaf 7334352996294058532))) (.node (.node (.leaf 171197770858135694) (.leaf 14183000192747292703)) (.node (.leaf 16437039241276465464) (.leaf 18282552076182845245)))) (.node (.node (.node (.leaf 2558594901032055797) (.leaf 14609640732286756826)) (.node (.leaf 10155203846695583462) (.leaf 4324468798287065683))) (.node (.node (.leaf 14479163305316667635) (.leaf 6727108651887619992)) (.node (.leaf 9051124326616371961) (.leaf 11952639951872648964))))) (.node (.node (.node (.node (.leaf 5009728099463038901) (.leaf 361576193620754941)) (.node (.leaf 13527335855530698070) (.leaf 15207370627752457295))) (.node (.node (.leaf 13426799383018258323) (.leaf 10051127067998503793)) (.node (.leaf 11012787938430437261) (.leaf 17577884083732520190)))) (.node (.node (.node (.leaf 1760289552034982883) (.leaf 5396152038796461478)) (.node (.leaf 12513839008137356129) (.leaf 3209687625574135365))) (.node (.node (.leaf 9135009641666381768) (.leaf 2304144762155431282)) (.node (.leaf 2427853163444829531) (.leaf 11446037406583808311))))))) (.node (.node (.node (.node (.node (.node (.leaf 2655721118587951193) (.leaf 4557543190759626797)) (.node (.leaf 1716381714706271553) (.leaf 3850985221411932716))) (.node (.node (.leaf 16406474301319663573) (.leaf 3815213419628612753)) (.node (.leaf 8563519084842651966) (.leaf 9155511980688615917)))) (.node (.node (.node (.leaf 12049020879881331025) (.leaf 11079973119625942336)) (.node (.leaf 15690551800321813588) (.leaf 13378242300725525181))) (.node (.node (.leaf 8797646042697387804) (.leaf 14354564214666304702)) (.node (.leaf 3680389291378160836) (.leaf 8751413646521013562))))) (.node (.node (.node (.node (.leaf 5919313288455180321) (.leaf 10594735018902493122)) (.node (.leaf 6522805930616217750) (.leaf 2881382946245018594))) (.node (.node (.leaf 12261194563980894856) (.leaf 6955602181087481204)) (.node (.leaf 11660097944943385106) (.leaf 2180580624617894067)))) (.node (.node (.node (.leaf 8982438529693523405) (.leaf 6876631009348763268)) (.node (.leaf 9685401784386034206) (.leaf 5679737166002331799))) (.node (.node (.leaf 14507984923554712804) (.leaf 16856247725953468692)) (.node (.leaf 4448883260427997399) (.leaf 5847834249548260560)))))) (.node (.node (.node (.node (.node (.leaf 17070258493685921365) (.leaf 3050154282797513310)) (.node (.leaf 17378601710351561130) (.leaf 5534231440463747334))) (.node (.node (.leaf 1282520987847317860) (.leaf 14122103438698994883)) (.node (.leaf 8708972961259339255) (.leaf 16544234807785302187)))) (.node (.node (.node (.leaf 14020363470472142365) (.leaf 14678225066522320557)) (.node (.leaf 14333882243359389639) (.leaf 1960153218325981514))) (.node (.node (.leaf 5308947669492418311) (.leaf 15815238406665003933)) (.node (.leaf 17729990288337460490) (.leaf 17644332111059057151))))) (.node (.node (.node (.node (.leaf 4298642268096925860) (.leaf 4818462450292206522)) (.node (.leaf 3503624398276941423) (.leaf 12129089940374587669))) (.node (.node (.leaf 2884428074338938582) (.leaf 16324643780726934473)) (.node (.leaf 14755846937977418188) (.leaf 9475714886743958896)))) (.node (.node (.node (.leaf 9941568600733303414) (.leaf 13788002041319285940)) (.node (.leaf 1316022337896232842) (.leaf 6090222750033335120))) (.node (.node (.leaf 489416455520315617) (.leaf 14961001760238693568)) (.node (.leaf 16255057844267382483) (.leaf 13752269455609901012)))))))) (.node (.node (.node (.node (.node (.node (.node (.leaf 8450574531171388345) (.leaf 3393125018052835368)) (.node (.leaf 16945896631851993502) (.leaf 11581387033420490486))) (.node (.node (.leaf 4538990863690401404) (.leaf 8285185572826032304)) (.node (.leaf 12327514249663639160) (.leaf 10712735019261211301)))) (.node (.node (.node (.leaf 13226910766021149176) (.leaf 6157131664962685678)) (.node (.leaf 4868516002788380466) (.leaf 7421504687610310269))) (.node (.node (.leaf 3559103441152285987) (.leaf 2029354140391280983)) (.node (.leaf 9649832342581297897) (.leaf 13646991753067773157))))) (.node (.node (.node (.node (.leaf 5736784288793177653) (.leaf 972311140312283671)) (.node (.leaf 7611982277301195967) (.leaf 6354079675067231704))) (.node (.node (.leaf 10173506743543458571) (.leaf 4954619437214629838)) (.node (.leaf 5981606437566154216) (.leaf 11166176116277164754)))) (.node (.node (.node (.leaf 13563197394171829996) (.leaf 98291083162182265)) (.node (.leaf 39794386956287049) (.leaf 12872862115907022152))) (.node (.node (.leaf 537130741543028292) (.leaf 908298657900554804)) (.node (.leaf 4136182364714873102) (.leaf 14800868612935155050)))))) (.node (.node (.node (.node (.node (.leaf 1119819826604549991) (.leaf 18132242233667194286)) (.node (.leaf 5768108804634005026) (.leaf 3603263548334427531))) (.node (.node (.leaf 702971330131224076) (.leaf 1578796053451138351)) (.node (.leaf 8585027031384045173) (.leaf 16652928165797426118)))) (.node (.node (.node (.leaf 6215307787206654854) (.leaf 14258898483783075862)) (.node (.leaf 1208609558441912684) (.leaf 15758234928837523691))) (.node (.node (.leaf 5555256567162468459) (.leaf 12603546890044751082)) (.node (.leaf 12715410822914258345) (.leaf 12986495751002217713))))) (.node (.node (.node (.node (.leaf 13136439072431801528) (.leaf 10325077758290794626)) (.node (.leaf 17184992753143829666) (.leaf 16624148117459942734))) (.node (.node (.leaf 2112782626664320634) (.leaf 11854085813699926850)) (.node (.leaf 6646918048465289199) (.leaf 16920950551701827836)))) (.node (.node (.node (.leaf 17696829636847417696) (.leaf 15466735541861239515)) (.node (.leaf 10463939937543928643) (.leaf 8339798243549123506))) (.node (.node (.leaf 8176167958146872347) (.leaf 17338562106813765104)) (.node (.leaf 10440348129142080582) (.leaf 9324937460748740640))))))) (.node (.node (.node (.node (.node (.node (.leaf 4107039315093417221) (.leaf 10821089060091109247)) (.node (.leaf 4643049542986340245) (.leaf 16017160864451512987))) (.node (.node (.leaf 759403944604538377) (.leaf 2475494987360048141)) (.node (.leaf 1054377770349246688) (.leaf 11336085702189235003)))) (.node (.node (.node (.leaf 11971350296034453096) (.leaf 6312673361660440508)) (.node (.leaf 7103401330711400076) (.leaf 15569650766919066458))) (.node (.node (.leaf 9825842748527785291) (.leaf 1825963260696168655)) (.node (.leaf 15857142750869063250) (.leaf 12904411601451864870))))) (.node (.node (.node (.node (.leaf 5432081596140932197) (.leaf 13909000580340237996)) (.node (.leaf 5196402001403170464) (.leaf 11294487395527545565))) (.node (.node (.leaf 11692925083468846947) (.leaf 7701032020823950823)) (.node (.leaf 18425023007760929246) (.leaf 12612670160679924300)))) (.node (.node (.node (.leaf 3005588769897895688) (.leaf 11234217484521467999)) (.node (.leaf 326743327888661340) (.leaf 219182800523139986))) (.node (.node (.leaf 8891627915233148698) (.leaf 17883865322595837839)) (.node (.leaf 3158784027842237994) (.leaf 7212815105821479773)))))) (.node (.node (.node (.node (.node (.leaf 6816573137784427032) (.leaf 6568112494485324252)) (.node (.leaf 9748353077146992238) (.leaf 17093458685798560705))) (.node (.node (.leaf 9953813502014063361) (.leaf 11752876125577118364)) (.node (.leaf 7555613614054661578) (.leaf 1499631606008572504)))) (.node (.node (.node (.leaf 7728292738607924016) (.leaf 13852479917785069881)) (.node (.leaf 1425870214715575159) (.leaf 10894683125821663663))) (.node (.node (.leaf 18014591690405671322) (.leaf 10569406996347445371)) (.node (.leaf 7967823815550858629) (.leaf 2746992191813460994))))) (.node (.node (.node (.node (.leaf 13267879128973527149) (.leaf 10296632550606795283)) (.node (.leaf 11493060088845000442) (.leaf 1904114218235133588))) (.node (.node (.leaf 7835111850812710785) (.leaf 18200746329609511094)) (.node (.leaf 3382093753073344899) (.leaf 12247705145662260273)))) (.node (.node (.node (.leaf 16091423184196157440) (.leaf 16782107208302713000)) (.node (.leaf 15368268242041418939) (.leaf 3254594451250156071))) (.node (.node (.leaf 3905266758290604451) (.leaf 2328263382960141298)) (.node (.leaf 17967438265524656551) (.leaf 9257675763851799339)))))))))
noncomputable def g2_2 : Tree := (.node (.node (.node (.node (.node (.node (.node (.node (.leaf 429025496958062618) (.leaf 3226460237993916950)) (.node (.leaf 15588832230577786349) (.leaf 16299226367978817912))) (.node (.node (.leaf 15785782968905373359) (.leaf 2543997924148290806)) (.node (.leaf 6796903919432868756) (.leaf 7327437891185507618)))) (.node (.node (.node (.leaf 17071591638082804198) (.leaf 2893595857400218532)) (.node (.leaf 3063807770905017524) (.leaf 1863709127554790475))) (.node (.node (.leaf 188133305692436776) (.leaf 5543781476546702504)) (.node (.leaf 15029800993422599896) (.leaf 12193752019672056959))))) (.node (.node (.node (.node (.leaf 11345105496471140501) (.leaf 9673338195476085699)) (.node (.leaf 8959862252955850097) (.leaf 10340439125587664669))) (.node (.node (.leaf 16552878852326272659) (.leaf 6363703148811849606)) (.node (.leaf 8748270961084333778) (.leaf 7404884882383415263)))) (.node (.node (.node (.leaf 2487648932237816668) (.leaf 16365596496349150016)) (.node (.leaf 7140221879799006142) (.leaf 16721831138072912951))) (.node (.node (.leaf 10133501571496254330) (.leaf 2706212401480476379)) (.node (.leaf 17499980549136939672) (.leaf 9329188288403550423)))))) (.node (.node (.node (.node (.node (.leaf 3470673703904250169) (.leaf 14665942522300564040)) (.node (.leaf 18040553635418244874) (.leaf 5995689310625544193))) (.node (.node (.leaf 7933787283611377906) (.leaf 5206969174983232037)) (.node (.leaf 3441923021329353069) (.leaf 6065326350632909865)))) (.node (.node (.node (.leaf 2188505364149607143) (.leaf 12748478253968185097)) (.node (.leaf 17525566029168413476) (.leaf 12826838979615197612))) (.node (.node (.leaf 16808388753080062921) (.leaf 14482890919202340301)) (.node (.leaf 8140951942914714628) (.leaf 8056678741355332604))))) (.node (.node (.node (.node (.leaf 4366617570910218219) (.leaf 12299809663593378766)) (.node (.leaf 9533136811634521725) (.leaf 15944415843856175818))) (.node (.node (.leaf 1176239148014880874) (.leaf 10706569397446115290)) (.node (.leaf 12988135655857492082) (.leaf 12451266966488127259)))) (.node (.node (.node (.leaf 7062167505913196339) (.leaf 20820960887496668)) (.node (.leaf 17885405156845731717) (.leaf 6730308863739973023))) (.node (.node (.leaf 8892658385152340278) (.leaf 18339496446500868124)) (.node (.leaf 17434854644878640663) (.leaf 16663444925316115459))))))) (.node (.node (.node (.node (.node (.node (.leaf 14777929758441668647) (.leaf 17163341858168349064)) (.node (.leaf 7682445027491700037) (.leaf 13389547608491859760))) (.node (.node (.leaf 14586229882619235297) (.leaf 4033155731832003719)) (.node (.leaf 8361290829807683160) (.leaf 7056668969841399736)))) (.node (.node (.node (.leaf 14877991907792574483) (.leaf 6477006956772103012)) (.node (.leaf 949016182036110919) (.leaf 2400912722853801753))) (.node (.node (.leaf 16003935291174658265) (.leaf 15119479017851433307)) (.node (.leaf 11711326684840824322) (.leaf 261128053919167604))))) (.node (.node (.node (.node (.leaf 8470289268039711190) (.leaf 11935395227163548612)) (.node (.leaf 9930685568951310609) (.leaf 16494162908712107919))) (.node (.node (.leaf 1576537377733691457) (.leaf 9594556040787422534)) (.node (.leaf 15707445225005837954) (.leaf 7449521079996837792)))) (.node (.node (.node (.leaf 4759460236508495549) (.leaf 2156289585219434764)) (.node (.leaf 14325155968209191421) (.leaf 8535305248804770072))) (.node (.node (.leaf 9819974086926914203) (.leaf 5119399233407205534)) (.node (.leaf 15904700515537927967) (.leaf 17258858192772516746)))))) (.node (.node (.node (.node (.node (.leaf 17642926499356151341) (.leaf 588241734090252994)) (.node (.leaf 5651943408550277901) (.leaf 9085548421778831450))) (.node (.node (.leaf 14928955061905352787) (.leaf 3577305059912420789)) (.node (.leaf 15324529157459095213) (.leaf 18223890334449162772)))) (.node (.node (.node (.leaf 1482045317291424945) (.leaf 10499298893482562957)) (.node (.leaf 9248692478345859311) (.leaf 15539406913595579568))) (.node (.node (.leaf 16225627523758505618) (.leaf 17837083641342375555)) (.node (.leaf 3835098144094675282) (.leaf 4660379009516380446))))) (.node (.node (.node (.node (.leaf 14528798863227661193) (.leaf 10588005434056942283)) (.node (.leaf 14072207379698915426) (.leaf 1725823971404354800))) (.node (.node (.leaf 16914544927891666920) (.leaf 5032606023716191458)) (.node (.leaf 115470889648352324) (.leaf 8203653271569691292)))) (.node (.node (.node (.leaf 12577423124005601422) (.leaf 9448406087928197843)) (.node (.leaf 10890315918032227402) (.leaf 4518894196527850348))) (.node (.node (.leaf 8600231308362361495) (.leaf 15267169793673325885)) (.node (.leaf 16104533373717164811) (.leaf 13263533554860443578)))))))) (.node (.node (.node (.node (.node (.node (.node (.leaf 10304179027988359318) (.leaf 9178379187435573184)) (.node (.leaf 6164590065666285150) (.leaf 17313535266997309795))) (.node (.node (.leaf 2301823337199561440) (.leaf 2803804991117706614)) (.node (.leaf 13513356227100775736) (.leaf 13174524577273393830)))) (.node (.node (.node (.leaf 4222317779648183759) (.leaf 10005529208032883244)) (.node (.leaf 12943966898132519133) (.leaf 4924851301789352631))) (.node (.node (.leaf 1425812203146925188) (.leaf 6685630633973787922)) (.node (.leaf 5803007618250286357) (.leaf 840497781400977713))))) (.node (.node (.node (.node (.leaf 13051760644462895136) (.leaf 13227977135724590843)) (.node (.leaf 774833853354135142) (.leaf 12801178697148581391))) (.node (.node (.leaf 7714031444862340189) (.leaf 1100032609697331148)) (.node (.leaf 5295441834571826302) (.leaf 11059694309182803412)))) (.node (.node (.node (.leaf 4545511126098756863) (.leaf 4860193191996034187)) (.node (.leaf 11562021611784625210) (.leaf 18012604303702238561))) (.node (.node (.leaf 18099854762679228033) (.leaf 5838060476339697900)) (.node (.leaf 7844134167036635333) (.leaf 18417125690612275122)))))) (.node (.node (.node (.node (.node (.leaf 2017810662954655270) (.leaf 6559131986836649293)) (.node (.leaf 17733107057269133151) (.leaf 13792942018502544528))) (.node (.node (.leaf 6872023315118068238) (.leaf 10082920156295320750)) (.node (.leaf 7503140312193719092) (.leaf 2971640354793279863)))) (.node (.node (.node (.leaf 1757289986544737845) (.leaf 16982945601905746601)) (.node (.leaf 3696732417115254776) (.leaf 15491972316894863879))) (.node (.node (.leaf 4066193743492363605) (.leaf 4314117155350132303)) (.node (.leaf 4149961150523858932) (.leaf 11004926022613267537))))) (.node (.node (.node (.node (.leaf 875032629081892704) (.leaf 5454833561737992569)) (.node (.leaf 15411724061419655057) (.leaf 4691738635001573537))) (.node (.node (.leaf 12513603959136067685) (.leaf 1884483283774485563)) (.node (.leaf 14390315721079260540) (.leaf 15778028123317478446)))) (.node (.node (.node (.leaf 11665322336399687893) (.leaf 1960983108151099664)) (.node (.leaf 8855982828735878698) (.leaf 7882615046176982775))) (.node (.node (.leaf 8342313517695335331) (.leaf 3117036370274653759)) (.node (.leaf 3278956746769544559) (.leaf 3926094790077032118))))))) (.node (.node (.node (.node (.node (.node (.leaf 312430299444310128) (.leaf 9751592453492841424)) (.node (.leaf 14732783252875340654) (.leaf 13849007925936011765))) (.node (.node (.leaf 10829909870091136665) (.leaf 553168672234919368)) (.node (.leaf 13673380956677062149) (.leaf 13947396652788388937)))) (.node (.node (.node (.leaf 1258922587546587654) (.leaf 18271339087318413415)) (.node (.leaf 3331434559699016363) (.leaf 14203744006125971641))) (.node (.node (.leaf 7233067593839560164) (.leaf 6549382421695374220)) (.node (.leaf 16155462803363273040) (.leaf 11753150363868947545))))) (.node (.node (.node (.node (.leaf 433335811812250577) (.leaf 1610933032885295649)) (.node (.leaf 5581788554479713623) (.leaf 17137362512592687614))) (.node (.node (.leaf 5964865011361598181) (.leaf 11462749446352536746)) (.node (.leaf 12375174013236209996) (.leaf 5334548086247581085)))) (.node (.node (.node (.leaf 2862942311294234923) (.leaf 11439077866853418993)) (.node (.leaf 3778786592157277557) (.leaf 13577534580304381824))) (.node (.node (.leaf 12134330647818292052) (.leaf 1319535564340547176)) (.node (.leaf 11819665475160007529) (.leaf 12050171315318385199)))))) (.node (.node (.node (.node (.node (.leaf 6920515585157359271) (.leaf 16607670327481479617)) (.node (.leaf 14180323826492377788) (.leaf 10765655914026993019))) (.node (.node (.leaf 9427869637462088968) (.leaf 1067020365198960958)) (.node (.leaf 4465093363459319106) (.leaf 6232773130555471666)))) (.node (.node (.node (.leaf 11250933435545122286) (.leaf 17706521701584514553)) (.node (.leaf 2653204537422369727) (.leaf 5070466616111414051))) (.node (.node (.leaf 8264699609094449570) (.leaf 2352214944546814707)) (.node (.leaf 12653868628016652723) (.leaf 10596545259166378490))))) (.node (.node (.node (.node (.leaf 693053949938081223) (.leaf 15179605704726752078)) (.node (.leaf 3671013349874366315) (.leaf 13460249158123487721))) (.node (.node (.leaf 8667268125772973034) (.leaf 12002763420725976291)) (.node (.leaf 7567532630676035584) (.leaf 9011774328543249011)))) (.node (.node (.node (.leaf 6318167885127542693) (.leaf 13761760438487104198)) (.node (.leaf 10406479015106808542) (.leaf 14043717063836375126))) (.node (.node (.leaf 10213784981521296195) (.leaf 5703058082820768443)) (.node (.leaf 11186066759151659674) (.leaf 11151667091430770748)))))))))
noncomputable def g2_3 : Tree := (.node (.node (.node (.node (.node (.node (.node (.node (.leaf 12526772952846311689) (.leaf 11034074755849860047)) (.node (.leaf 7995413961048742456) (.leaf 15030361314318378985))) (.node (.node (.leaf 5873790226182948372) (.leaf 11024336886336377861)) (.node (.leaf 12671971585026390888) (.leaf 3891005535434999242)))) (.node (.node (.node (.leaf 12140492757910238938) (.leaf 5375513036158488299)) (.node (.leaf 2997072342081329323) (.leaf 14926999821157759709))) (.node (.node (.leaf 3051045742230471067) (.leaf 3813105757475545660)) (.node (.leaf 2439124765543083190) (.leaf 6720520093623184998))))) (.node (.node (.node (.node (.leaf 8311050869160168429) (.leaf 8516478741949995142)) (.node (.leaf 3992454453503996011) (.leaf 18111978742528148728))) (.node (.node (.leaf 4097802921401437229) (.leaf 3653421737221454115)) (.node (.leaf 5229706406783971161) (.leaf 992771588409705502)))) (.node (.node (.node (.leaf 14562447477657503029) (.leaf 17560845309994846265)) (.node (.leaf 5822460834794901212) (.leaf 423269263303404988))) (.node (.node (.leaf 239828776983341034) (.leaf 2108516569768772010)) (.node (.leaf 12978685846978170285) (.leaf 2913214183119731487)))))) (.node (.node (.node (.node (.node (.leaf 15591983822544978182) (.leaf 10390185358250107897)) (.node (.leaf 9886510094539935214) (.leaf 15230014876379824212))) (.node (.node (.leaf 9379359843182697810) (.leaf 17998263184330730949)) (.node (.leaf 10119140636827177890) (.leaf 11455951517170539521)))) (.node (.node (.node (.leaf 8715456755235974218) (.leaf 16325621504911416997)) (.node (.leaf 17359623866481339032) (.leaf 12875458366661471095))) (.node (.node (.leaf 13176657730734423127) (.leaf 15101085879340640643)) (.node (.leaf 14065869534623891250) (.leaf 10742924350793034419))))) (.node (.node (.node (.node (.leaf 16360036414135178964) (.leaf 11469728236325888644)) (.node (.leaf 9718026162877221882) (.leaf 11150864652022068695))) (.node (.node (.leaf 5667007644467980610) (.leaf 3144290986964552701)) (.node (.leaf 16091971722445538576) (.leaf 18255811126123227712)))) (.node (.node (.node (.leaf 16469445832722907258) (.leaf 17664722006065282385)) (.node (.leaf 4296240781696703385) (.leaf 4442408455237604377))) (.node (.node (.leaf 3578385340540298317) (.leaf 15340182551565294546)) (.node (.leaf 12013311893885760116) (.leaf 13594571929480564007))))))) (.node (.node (.node (.node (.node (.node (.leaf 1812838010158764534) (.leaf 16560991647383071153)) (.node (.leaf 2566244447840028426) (.leaf 16035544557785235358))) (.node (.node (.leaf 11822580202762326092) (.leaf 2364261435009287241)) (.node (.leaf 6405511563306900580) (.leaf 13631941242821122504)))) (.node (.node (.node (.leaf 10508645337594391367) (.leaf 9095131636061440675)) (.node (.leaf 6567535932640298722) (.leaf 18030855847250664765))) (.node (.node (.leaf 6823679289269112662) (.leaf 4886991469530876384)) (.node (.leaf 3368257877988122817) (.leaf 14839884192781003666))))) (.node (.node (.node (.node (.leaf 9065811964007225553) (.leaf 13795797035066962550)) (.node (.leaf 28082202934468774) (.leaf 15148969199163135287))) (.node (.node (.leaf 8451616702061429502) (.leaf 5096464518353262343)) (.node (.leaf 12739681112211759046) (.leaf 1174209556857936620)))) (.node (.node (.node (.leaf 11703834387828268409) (.leaf 4195616612922619522)) (.node (.leaf 15771695566203141399) (.leaf 8232632856919368799))) (.node (.node (.leaf 11747703716541648172) (.leaf 17740351473423178010)) (.node (.leaf 5757372245700510603) (.leaf 10165110820696363282)))))) (.node (.node (.node (.node (.node (.leaf 8851637804582454812) (.leaf 289698391677702064)) (.node (.leaf 4763199971922851694) (.leaf 2793381943003010597))) (.node (.node (.leaf 3462596534163261713) (.leaf 14387797310520573768)) (.node (.leaf 12343814888729185220) (.leaf 4718129029542029371)))) (.node (.node (.node (.leaf 13111361468552914325) (.leaf 13219599447633922574)) (.node (.leaf 11208869164275304244) (.leaf 15664304101268822988))) (.node (.node (.leaf 17043057658231600236) (.leaf 10251297962795406685)) (.node (.leaf 13437677617416905922) (.leaf 10927977690837540678))))) (.node (.node (.node (.node (.leaf 2051500208224641420) (.leaf 15348820223534378942)) (.node (.leaf 10734687869129481310) (.leaf 11949504330415585717))) (.node (.node (.leaf 13280352383589021864) (.leaf 16267758012007622270)) (.node (.leaf 789888824513294877) (.leaf 14152209886778109591)))) (.node (.node (.node (.leaf 1524969592070665009) (.leaf 7644605084321836159)) (.node (.leaf 2599700945330208536) (.leaf 5558508918372577669))) (.node (.node (.leaf 15821932502234934908) (.leaf 3406179158565304899)) (.node (.leaf 9773837765532414889) (.leaf 8727850061182608383)))))))) (.node (.node (.node (.node (.node (.node (.node (.leaf 6002371535357637899) (.leaf 5522542296828003709)) (.node (.leaf 7283835411234491633) (.leaf 14212853365770450445))) (.node (.node (.leaf 15542245929009972056) (.leaf 15881704375688475887)) (.node (.leaf 129440357205802616) (.leaf 13345961070424679808)))) (.node (.node (.node (.leaf 4554805090996992002) (.leaf 12903971826482025188)) (.node (.leaf 12215124754682241649) (.leaf 2830534325059915993))) (.node (.node (.leaf 9587276517485258821) (.leaf 4520349970514639555)) (.node (.leaf 13874202655637942079) (.leaf 18211694250769849043))))) (.node (.node (.node (.node (.leaf 9311188278611425867) (.leaf 14553226821430823209)) (.node (.leaf 5003478006202478706) (.leaf 17582650612804940353))) (.node (.node (.leaf 7158638229458780694) (.leaf 17492254224255268147)) (.node (.leaf 10860055131445653838) (.leaf 7271980085161312485)))) (.node (.node (.node (.leaf 1334794253936277583) (.leaf 14010896470294901663)) (.node (.leaf 5931342164661397976) (.leaf 16769478446162181280))) (.node (.node (.leaf 9849514729472836301) (.leaf 8919477996421178522)) (.node (.leaf 17407672080297202479) (.leaf 11253886370007896982)))))) (.node (.node (.node (.node (.node (.leaf 1269592853586072711) (.leaf 13698100436955103266)) (.node (.leaf 8980422499638276464) (.leaf 16581322142267506109))) (.node (.node (.leaf 8601612412609698069) (.leaf 1486750695050032686)) (.node (.leaf 11531303438869465331) (.leaf 17882624282683522787)))) (.node (.node (.node (.leaf 6543212245797498809) (.leaf 16143438636272149951)) (.node (.leaf 14285406459268732007) (.leaf 6168318441665398708))) (.node (.node (.leaf 17110039887050141290) (.leaf 3234339621680445926)) (.node (.leaf 8423415614428221313) (.leaf 14753033830410641847))))) (.node (.node (.node (.node (.leaf 1116972932841443047) (.leaf 7386498570018637724)) (.node (.leaf 4353300242110649742) (.leaf 2012496374792312552))) (.node (.node (.leaf 6934679618041390445) (.leaf 7575395636403869904)) (.node (.leaf 11323823540015124228) (.leaf 919152059170174763)))) (.node (.node (.node (.leaf 14451714913595367464) (.leaf 12393936626432604936)) (.node (.leaf 13940837199006038131) (.leaf 4631484870074423246))) (.node (.node (.leaf 2180024066957074234) (.leaf 6220382975986601999)) (.node (.leaf 6123304051658518531) (.leaf 851476670241291681))))))) (.node (.node (.node (.node (.node (.node (.leaf 7717899506275490468) (.leaf 16913486772665417417)) (.node (.leaf 16815593357539687529) (.leaf 8026747587902810013))) (.node (.node (.leaf 213991380879096287) (.leaf 3676070217178813994)) (.node (.leaf 2293230587489299092) (.leaf 1395687119889718049)))) (.node (.node (.node (.leaf 12546718811426746610) (.leaf 15468967434203715063)) (.node (.leaf 7085694335850374842) (.leaf 6868425436250956059))) (.node (.node (.leaf 6282332804157416108) (.leaf 7871513835446262951)) (.node (.leaf 7538102427766205794) (.leaf 13514425790964394064))))) (.node (.node (.node (.node (.leaf 12304846662896412338) (.leaf 2732586785222009736)) (.node (.leaf 5331255324327272692) (.leaf 15952022403911903077))) (.node (.node (.leaf 1767833894801311329) (.leaf 3958306934047632839)) (.node (.leaf 9461896895963718448) (.leaf 1628055797566902929)))) (.node (.node (.node (.leaf 9227416545525058192) (.leaf 14891856406016381051)) (.node (.leaf 7442602225453981387) (.leaf 18368090508857313749))) (.node (.node (.leaf 11666331970396648670) (.leaf 6671503820695589551)) (.node (.leaf 1009746936813209840) (.leaf 465738111463149909)))))) (.node (.node (.node (.node (.node (.leaf 7849750322384768019) (.leaf 12803018472327531070)) (.node (.leaf 5455380076813308452) (.leaf 1661746995725419354))) (.node (.node (.leaf 9975876573505386332) (.leaf 2513402112388943477)) (.node (.leaf 684426632963743244) (.leaf 17178228592933635104)))) (.node (.node (.node (.leaf 4110626017766415763) (.leaf 17824459160545311782)) (.node (.leaf 14664033476888996707) (.leaf 10522246746920529147))) (.node (.node (.leaf 4961313960625697883) (.leaf 8127518322673877678)) (.node (.leaf 16990335864624482488) (.leaf 5159723536058800636))))) (.node (.node (.node (.node (.leaf 9531751844149349590) (.leaf 10624720432416680123)) (.node (.leaf 17226449747698828175) (.leaf 10065290290525435190))) (.node (.node (.leaf 3310297654404776329) (.leaf 538479114299224565)) (.node (.leaf 8178011641615793115) (.leaf 586114838688833505)))) (.node (.node (.node (.leaf 12089122036756648815) (.leaf 6448326316267454093)) (.node (.leaf 7019918242903521092) (.leaf 18404373526007355219))) (.node (.node (.leaf 10342414545940272896) (.leaf 16716691753436587658)) (.node (.leaf 1912509545383894624) (.leaf 9219643202606830016)))))))))
noncomputable def g2 : G := ⟨g2_0, g2_1, g2_2, g2_3, ⟨12666556314251211818, 10536315892291800680, 1961454072029850005⟩⟩

noncomputable def g3_0 : Tree := (.node (.node (.node (.node (.node (.node (.node (.node (.leaf 411975280441144863) (.leaf 1096955674058376885)) (.node (.leaf 15001960562582598458) (.leaf 16599413332495645745))) (.node (.node (.leaf 2172092247593526359) (.leaf 12761416565685826797)) (.node (.leaf 11598420347281372544) (.leaf 2980168763881501333)))) (.node (.node (.node (.leaf 6670474754932347849) (.leaf 10915421308217582509)) (.node (.leaf 742958972075770892) (.leaf 4532922487787276861))) (.node (.node (.leaf 11009997657370480905) (.leaf 7749411967998365046)) (.node (.leaf 17683247801715087197) (.leaf 5014938440789298543))))) (.node (.node (.node (.node (.leaf 15252235113885118331) (.leaf 13062516717389170514)) (.node (.leaf 577822217578043786) (.leaf 4878013584490521886))) (.node (.node (.leaf 15818322443831406298) (.leaf 10646804258404132732)) (.node (.leaf 17119323155790023988) (.leaf 17515641360480249499)))) (.node (.node (.node (.leaf 18264755618788210808) (.leaf 14186921701900929826)) (.node (.leaf 3622722306139626484) (.leaf 12358447177692927690))) (.node (.node (.leaf 17173836861261897918) (.leaf 15710728579960787198)) (.node (.leaf 9270600667298857428) (.leaf 6626578736636829202)))))) (.node (.node (.node (.node (.node (.leaf 12020596599940382304) (.leaf 11687612462212622916)) (.node (.leaf 14515148463085709578) (.leaf 9787939418753033216))) (.node (.node (.leaf 8374174759725734051) (.leaf 3499565185251749921)) (.node (.leaf 13794085471904531729) (.leaf 16084007868681915619)))) (.node (.node (.node (.leaf 5713258838852356569) (.leaf 12310275289174324817)) (.node (.leaf 59937779549651765) (.leaf 4442317358019574744))) (.node (.node (.leaf 7410981298650541239) (.leaf 2007392557733785021)) (.node (.leaf 10576074901213600204) (.leaf 9034026625598922110))))) (.node (.node (.node (.node (.leaf 9989005594072897459) (.leaf 18176638235413272641)) (.node (.leaf 10798624530641053917) (.leaf 6740264792245390371))) (.node (.node (.leaf 15941217182711696575) (.leaf 6830009484289773689)) (.node (.leaf 140436341035392859) (.leaf 10826422691338129033)))) (.node (.node (.node (.leaf 13583860286332402935) (.leaf 7253456752907698384)) (.node (.leaf 1698790708054992818) (.leaf 16216239477187064080))) (.node (.node (.leaf 18153264599790509684) (.leaf 2510904281482089279)) (.node (.leaf 13265163279985825255) (.leaf 12510465774580148523))))))) (.node (.node (.node (.node (.node (.node (.leaf 15856652259825424788) (.leaf 10094235138284756531)) (.node (.leaf 6352011547607497222) (.leaf 1525010288000001776))) (.node (.node (.leaf 16934555915197818592) (.leaf 7289176513955066141)) (.node (.leaf 1326942730802979162) (.leaf 11956884070262856911)))) (.node (.node (.node (.leaf 2723899758390377743) (.leaf 527160595199133231)) (.node (.leaf 13885833312701127309) (.leaf 13411765796309228089))) (.node (.node (.leaf 3900553478724219936) (.leaf 17848749579605856968)) (.node (.leaf 11125088524488279992) (.leaf 14784778939884352914))))) (.node (.node (.node (.node (.leaf 6200889101126372964) (.leaf 7083417274970112936)) (.node (.leaf 12891131984774512208) (.leaf 5966964793465187848))) (.node (.node (.leaf 3777278247823043639) (.leaf 17076768457622874993)) (.node (.leaf 8500503088158312926) (.leaf 2422658285242017683)))) (.node (.node (.node (.leaf 4169942495848256678) (.leaf 6479787191711306788)) (.node (.leaf 4547409883426185294) (.leaf 2809904454622153622))) (.node (.node (.leaf 1872820804120781984) (.leaf 17752599025505461922)) (.node (.leaf 10280987637903859714) (.leaf 16802074414801196883)))))) (.node (.node (.node (.node (.node (.leaf 3576182507715142097) (.leaf 12725548073345052749)) (.node (.leaf 17926084324448909985) (.leaf 2340365771152186315))) (.node (.node (.leaf 3834953402497871349) (.leaf 7622492485163164574)) (.node (.leaf 7173296117726485673) (.leaf 5135683795444516986)))) (.node (.node (.node (.leaf 1432382175354534385) (.leaf 14480422758094165532)) (.node (.leaf 1474766324655638373) (.leaf 9494564827566014694))) (.node (.node (.leaf 13515127524578721756) (.leaf 9297278564347148779)) (.node (.leaf 11292815531554867948) (.leaf 1894401906251800558))))) (.node (.node (.node (.node (.leaf 12069763909371459993) (.leaf 11624465852739709349)) (.node (.leaf 11516291098890565802) (.leaf 11410232722682390716))) (.node (.node (.leaf 6162808622981659205) (.leaf 197318335955370392)) (.node (.leaf 8357206132154487246) (.leaf 14622851593448775575)))) (.node (.node (.node (.leaf 16046409934505834119) (.leaf 16150556349218434988)) (.node (.leaf 12543343005497739289) (.leaf 16696594563433596865))) (.node (.node (.leaf 13996889322104946494) (.leaf 9387982209328739111)) (.node (.leaf 15476551877384880429) (.leaf 3064788315572545562)))))))) (.node (.node (.node (.node (.node (.node (.node (.leaf 4367471237361483318) (.leaf 12464722612293409829)) (.node (.leaf 13661276191516856579) (.leaf 1616025137823528929))) (.node (.node (.leaf 2831844215665318052) (.leaf 14057609181785992234)) (.node (.leaf 9619413411843630001) (.leaf 712909849356172355)))) (.node (.node (.node (.leaf 9880727959519938296) (.leaf 17960646423772676627)) (.node (.leaf 10078948758504989043) (.leaf 9144406848208531053))) (.node (.node (.leaf 1030038804678117556) (.leaf 4305517788495768235)) (.node (.leaf 11780301266165550818) (.leaf 11337961259274845360))))) (.node (.node (.node (.node (.leaf 14250201907576142532) (.leaf 2282186534162860517)) (.node (.leaf 15668844593291638002) (.leaf 14659571512280194950))) (.node (.node (.leaf 986808232522782977) (.leaf 7006705279916241603)) (.node (.leaf 9214679264603554035) (.leaf 5882884077057409047)))) (.node (.node (.node (.leaf 12618742521693763562) (.leaf 15381136658873951574)) (.node (.leaf 5056017800468690236) (.leaf 13370436511231701065))) (.node (.node (.leaf 3368508082584964930) (.leaf 5509311061774216903)) (.node (.leaf 13936443378852467058) (.leaf 9846336675680468367)))))) (.node (.node (.node (.node (.node (.leaf 7446139500910974717) (.leaf 18016891859172488744)) (.node (.leaf 7985133902964409644) (.leaf 8762849589855679359))) (.node (.node (.leaf 252737783982467608) (.leaf 6321099006265894815)) (.node (.leaf 17323582446891095245) (.leaf 16864180902577361582)))) (.node (.node (.node (.leaf 3733224956419253598) (.leaf 14301400818905075069)) (.node (.leaf 6068234319040983744) (.leaf 8047632397793432220))) (.node (.node (.leaf 16387697914706886256) (.leaf 13739501332301302342)) (.node (.leaf 5193631563172833356) (.leaf 2106439878201579285))))) (.node (.node (.node (.node (.leaf 18355636366902530923) (.leaf 5587208484797233247)) (.node (.leaf 12141038628625979448) (.leaf 4226702222812630789))) (.node (.node (.leaf 4716170967731520099) (.leaf 2021216725597752456)) (.node (.leaf 924349051083202649) (.leaf 2647589663007812538)))) (.node (.node (.node (.leaf 8714491458114274375) (.leaf 16429411108843953623)) (.node (.leaf 7826601931481550630) (.leaf 4630742706507977988))) (.node (.node (.leaf 15543388532542310407) (.leaf 10394964255433204677)) (.node (.leaf 11091150077805486838) (.leaf 5686206763932771823))))))) (.node (.node (.node (.node (.node (.node (.leaf 17375768107443617070) (.leaf 5289189690772770489)) (.node (.leaf 6024103134574861525) (.leaf 11878098708284048955))) (.node (.node (.leaf 8588450393993007207) (.leaf 4965913085029745766)) (.node (.leaf 9687233964182921816) (.leaf 8962171181606648258)))) (.node (.node (.node (.leaf 17608686627398175618) (.leaf 14396386539639379063)) (.node (.leaf 12920327955773430726) (.leaf 288627618814057147))) (.node (.node (.leaf 2532441417264906063) (.leaf 11197634234817396585)) (.node (.leaf 10732455737805128512) (.leaf 8095828012880241236))))) (.node (.node (.node (.node (.leaf 13131772533858944467) (.leaf 18439287814017360458)) (.node (.leaf 17228711009799209686) (.leaf 10452623660531615116))) (.node (.node (.leaf 12230409835805410190) (.leaf 14913729718210393160)) (.node (.leaf 5834894549001415044) (.leaf 3242538594273235177)))) (.node (.node (.node (.leaf 2905977883587778024) (.leaf 1252482996354482855)) (.node (.leaf 1790896653972468187) (.leaf 15628544446939172859))) (.node (.node (.leaf 15102251191468940661) (.leaf 13194785894404772705)) (.node (.leaf 17452434922357350063) (.leaf 10304954590931950308)))))) (.node (.node (.node (.node (.node (.leaf 15309457471740473186) (.leaf 8905621485578607387)) (.node (.leaf 15143173718760305514) (.leaf 8226796231639749938))) (.node (.node (.leaf 8540103044574702981) (.leaf 7642825338779644127)) (.node (.leaf 5427851220738619467) (.leaf 4003192929994904086)))) (.node (.node (.node (.leaf 6853485842514971602) (.leaf 9539464437105880368)) (.node (.leaf 16292387733091789579) (.leaf 6936850423050894121))) (.node (.node (.leaf 445254116981260683) (.leaf 8859575906273353215)) (.node (.leaf 1157841171383858563) (.leaf 3422370938941878636))))) (.node (.node (.node (.node (.leaf 8180535112230838548) (.leaf 4080829204244151681)) (.node (.leaf 16772687356745476858) (.leaf 14917531506873823993))) (.node (.node (.leaf 7877108922464486544) (.leaf 6542642630550039565)) (.node (.leaf 3256102081478412636) (.leaf 12973224010448500637)))) (.node (.node (.node (.leaf 5356908091052322812) (.leaf 3144375559949858742)) (.node (.leaf 16553622319741123342) (.leaf 4805307102272502673))) (.node (.node (.leaf 820734275816024917) (.leaf 7556266806167472744)) (.node (.leaf 14740677498109027482) (.leaf 10174881000133367406)))))))))
noncomputable def g3_1 : Tree := (.node (.node (.node (.node (.node (.node (.node (.node (.leaf 13066481191425662230) (.leaf 1042343689498001920)) (.node (.leaf 11637141700977786675) (.leaf 14998276181627741657))) (.node (.node (.leaf 6874293636555758674) (.leaf 12788801858530569575)) (.node (.leaf 11184223126205186761) (.leaf 485010721635156102)))) (.node (.node (.node (.leaf 14432196672536868673) (.leaf 8087567308060124796)) (.node (.leaf 1339239252150914590) (.leaf 17855026903935224932))) (.node (.node (.leaf 9330698496368778551) (.leaf 10794581614974540581)) (.node (.leaf 9596161597003390927) (.leaf 6998178152616835841))))) (.node (.node (.node (.node (.leaf 2998726090822170357) (.leaf 1618241399980247875)) (.node (.leaf 2243224717610591864) (.leaf 7779025103228611149))) (.node (.node (.leaf 4420235865082296686) (.leaf 4158994290446502194)) (.node (.leaf 298336615879334562) (.leaf 9394201850293694224)))) (.node (.node (.node (.leaf 5834156373656076722) (.leaf 9516958286205264766)) (.node (.leaf 18199856593228811811) (.leaf 14848848469013584430))) (.node (.node (.leaf 16941518723428377467) (.leaf 2922502920666628319)) (.node (.leaf 10303148839236137898) (.leaf 18326895255037410453)))))) (.node (.node (.node (.node (.node (.leaf 2359758083926137404) (.leaf 14036491561640406335)) (.node (.leaf 12366911348273825424) (.leaf 4884394906378691108))) (.node (.node (.leaf 7794328586811907542) (.leaf 14162132561563729695)) (.node (.leaf 13002885908701553137) (.leaf 18282421234299127048)))) (.node (.node (.node (.leaf 3199633386872360100) (.leaf 14575581843543232730)) (.node (.leaf 2049887610116077235) (.leaf 4336314936564724307))) (.node (.node (.leaf 15992569453503802307) (.leaf 6727108389894614936)) (.node (.leaf 5645802043190164495) (.leaf 13465849426673133316))))) (.node (.node (.node (.node (.leaf 8031258677280894082) (.leaf 361576193625490429)) (.node (.leaf 13311827748924367855) (.leaf 15207346438496593879))) (.node (.node (.leaf 11950071150577190698) (.leaf 10051145759696175985)) (.node (.leaf 193420837631388910) (.leaf 16145454628715666634)))) (.node (.node (.node (.leaf 8829758413289264302) (.leaf 5383485553175332262)) (.node (.leaf 6147978159314020751) (.leaf 2561250641096744773))) (.node (.node (.leaf 8934563088052814161) (.leaf 9734521198739060082)) (.node (.leaf 7517721298571846291) (.leaf 11388897983610413516))))))) (.node (.node (.node (.node (.node (.node (.leaf 3315064700102481273) (.leaf 5458826067428661347)) (.node (.leaf 4657148466390924376) (.leaf 8462761399799679532))) (.node (.node (.leaf 10522621797798185830) (.leaf 3815213421474106513)) (.node (.leaf 17539867243866512169) (.leaf 9155511980385118701)))) (.node (.node (.node (.leaf 16909928852338696402) (.leaf 11079973119625942342)) (.node (.leaf 1082593410119094917) (.leaf 13378241982579178195))) (.node (.node (.leaf 15130179896217866992) (.leaf 14354564157999488190)) (.node (.leaf 7164058030068387680) (.leaf 8738184323538359610))))) (.node (.node (.node (.node (.leaf 3857205990410307753) (.leaf 9937772423259869269)) (.node (.leaf 17192525752316257771) (.leaf 2825087950902917242))) (.node (.node (.leaf 6450273179669835808) (.leaf 6928100096741920116)) (.node (.leaf 7208220008852866558) (.leaf 2180384911548149784)))) (.node (.node (.node (.leaf 15367699330781893280) (.leaf 7453091761647009644)) (.node (.leaf 17602579680997306932) (.leaf 5751794760040259735))) (.node (.node (.leaf 8621706082508796174) (.leaf 16827818753314867476)) (.node (.leaf 7333137464456488752) (.leaf 18025567641958081744)))))) (.node (.node (.node (.node (.node (.leaf 13146027950357831106) (.leaf 3076331455631604318)) (.node (.leaf 13619962685082000962) (.leaf 4092971807565666566))) (.node (.node (.leaf 16496821292108551969) (.leaf 14122103966979972234)) (.node (.leaf 6650648907289462881) (.leaf 16538886652432623787)))) (.node (.node (.node (.leaf 15552824365893923015) (.leaf 14678083229522337453)) (.node (.leaf 18107901366219116446) (.leaf 7580498217988022602))) (.node (.node (.leaf 1437705119409952905) (.leaf 15815310974432443293)) (.node (.leaf 3591688408933937470) (.leaf 15914949451309808127))))) (.node (.node (.node (.node (.leaf 1890747944812917902) (.leaf 4818462450292206522)) (.node (.leaf 17299540248432913938) (.leaf 12161459562683926805))) (.node (.node (.leaf 5142070523678443490) (.leaf 5614802391866002389)) (.node (.leaf 7872038878516916729) (.leaf 2125840294875309413)))) (.node (.node (.node (.leaf 11734972354583868365) (.leaf 13788002041319285940)) (.node (.leaf 10595310916725040862) (.leaf 6090785699986800464))) (.node (.node (.leaf 2617710819999544418) (.leaf 14957341997516844736)) (.node (.leaf 16773593507364717479) (.leaf 6041892488784195540)))))))) (.node (.node (.node (.node (.node (.node (.node (.leaf 5973459032063433052) (.leaf 3393124854844053288)) (.node (.leaf 9950894499522094262) (.leaf 11581387823694460918))) (.node (.node (.leaf 11845975295120328204) (.leaf 8285185598167230640)) (.node (.leaf 8564862709890574443) (.leaf 10712734375016116901)))) (.node (.node (.node (.leaf 1988246054534351859) (.leaf 715657416316391477)) (.node (.leaf 3979505360132607859) (.leaf 7377729831170769021))) (.node (.node (.leaf 6521714662773831741) (.leaf 5055585844475957591)) (.node (.leaf 3714524299253163079) (.leaf 17393986406816829413))))) (.node (.node (.node (.node (.leaf 5319145725529347981) (.leaf 13582491724459318807)) (.node (.leaf 13193790403065593172) (.leaf 6354079352929596888))) (.node (.node (.leaf 12263094645040144047) (.leaf 17028207376004430286)) (.node (.leaf 2428123812522939190) (.leaf 11166218649349962443)))) (.node (.node (.node (.leaf 984752209663849620) (.leaf 98291083162222009)) (.node (.leaf 12249291872897407103) (.leaf 12872862115907022152))) (.node (.node (.leaf 9476703493871200086) (.leaf 908167816016849435)) (.node (.leaf 15133594820438348845) (.leaf 14812127612003581290)))))) (.node (.node (.node (.node (.node (.leaf 1243103483216062467) (.leaf 14313189749657013731)) (.node (.leaf 5545353642815422063) (.leaf 3664733945848024459))) (.node (.node (.leaf 16095978336938021281) (.leaf 1535167432060997167)) (.node (.leaf 17778712320712505083) (.leaf 16652928165790355910)))) (.node (.node (.node (.leaf 17492100522016270602) (.leaf 14258739054605581685)) (.node (.leaf 9714423785212587140) (.leaf 17703789966603286678))) (.node (.node (.leaf 16356907044994515956) (.leaf 12585473646192147690)) (.node (.leaf 12453632859856334234) (.leaf 5215019185019914040))))) (.node (.node (.node (.node (.leaf 18440447229928829873) (.leaf 10304499994450041056)) (.node (.leaf 15693471545980456133) (.leaf 16582489820906772046))) (.node (.node (.leaf 537711263177270663) (.leaf 4504211917615979369)) (.node (.leaf 11523971163675448155) (.leaf 12093091751345222075)))) (.node (.node (.node (.leaf 15739362496324128841) (.leaf 15466735540871383771)) (.node (.leaf 7979887841568758169) (.leaf 6826588767257367505))) (.node (.node (.leaf 4944881724439198440) (.leaf 3503504081593881884)) (.node (.leaf 3109327721021827904) (.leaf 5001352015971446408))))))) (.node (.node (.node (.node (.node (.node (.leaf 769283195140202265) (.leaf 9851126290341863364)) (.node (.leaf 8669307901384365850) (.leaf 15997457418502523496))) (.node (.node (.leaf 6225277056654912546) (.leaf 10401830331532383245)) (.node (.leaf 15333798095568262819) (.leaf 11336085701234703223)))) (.node (.node (.node (.leaf 631231929519356315) (.leaf 6312673361660440508)) (.node (.leaf 2466687636330575775) (.leaf 15569650767808258906))) (.node (.node (.leaf 10876191155433768543) (.leaf 1821675164223768694)) (.node (.leaf 9145864642056146632) (.leaf 12904344531242517798))))) (.node (.node (.node (.node (.leaf 10992688952396207216) (.leaf 13925607602472982956)) (.node (.leaf 14553606353910347025) (.leaf 8950645264461010653))) (.node (.node (.leaf 17281781021432199396) (.leaf 7701080674213478119)) (.node (.leaf 8172088619141995373) (.leaf 12612670158498886220)))) (.node (.node (.node (.leaf 16276661593860708031) (.leaf 14765032199248048203)) (.node (.leaf 12699749089593862745) (.leaf 13493824177180463506))) (.node (.node (.leaf 1193893368934834665) (.leaf 17883865322595845879)) (.node (.leaf 7077833742952612411) (.leaf 10206020612449342301)))))) (.node (.node (.node (.node (.node (.leaf 8320483588800543718) (.leaf 6621311264194445788)) (.node (.leaf 4688219227574804999) (.leaf 17093458685563679681))) (.node (.node (.leaf 10129921594823721344) (.leaf 11752933300181762716)) (.node (.leaf 17983143421058690569) (.leaf 1499453947510843909)))) (.node (.node (.node (.leaf 1740708142364036431) (.leaf 13882316265316394553)) (.node (.leaf 9034629189355553860) (.leaf 10894683293325388043))) (.node (.node (.leaf 5857663533627286147) (.leaf 16406071855721570529)) (.node (.leaf 1679044311209607308) (.leaf 2746991809561413890))))) (.node (.node (.node (.node (.leaf 267106847778288888) (.leaf 3905461729414650387)) (.node (.leaf 2721591260119598332) (.leaf 4282014822191398636))) (.node (.node (.leaf 4543216117047113397) (.leaf 12003985218795905053)) (.node (.leaf 10513743899161542328) (.leaf 8382610147132465)))) (.node (.node (.node (.leaf 12475658256411620791) (.leaf 8423592326168758184)) (.node (.leaf 11284119434155199226) (.leaf 3254647511276130855))) (.node (.node (.leaf 836680443407288449) (.leaf 4210768027200980210)) (.node (.leaf 13755289852370171837) (.leaf 9257675760284412715)))))))))
noncomputable def g3_2 : Tree := (.node (.node (.node (.node (.node (.node (.node (.node (.leaf 7068699340181817573) (.leaf 3226460190749239062)) (.node (.leaf 6892605287590896625) (.leaf 16299270348443928964))) (.node (.node (.leaf 13798854855970445680) (.leaf 2590722773184719862)) (.node (.leaf 13611491966063187372) (.leaf 2860000766689115426)))) (.node (.node (.node (.leaf 9607837553535321659) (.leaf 2895566182237193135)) (.node (.leaf 5677065577179243399) (.leaf 1844568828719035467))) (.node (.node (.leaf 12975273654646698877) (.leaf 5543712104234937512)) (.node (.leaf 12952009905804494126) (.leaf 14715767810999338218))))) (.node (.node (.node (.node (.leaf 11589042348642321515) (.leaf 9673338195478653635)) (.node (.leaf 12580150389599102466) (.leaf 10340503796806066012))) (.node (.node (.leaf 10085917186222672286) (.leaf 6374145210740838278)) (.node (.leaf 11416583974088416194) (.leaf 7358886943274280927)))) (.node (.node (.node (.leaf 8672233589473343165) (.leaf 16377981398075882304)) (.node (.leaf 4187462769826433552) (.leaf 4039694583555571255))) (.node (.node (.leaf 10214385873851835618) (.leaf 2706374459186507483)) (.node (.leaf 1347860470090121945) (.leaf 9329188288414560471)))))) (.node (.node (.node (.node (.node (.leaf 11790557264748146862) (.leaf 316362503242482331)) (.node (.leaf 1697664232758579677) (.leaf 2176636826617788417))) (.node (.node (.leaf 2125001370434020436) (.leaf 5206969174985525797)) (.node (.leaf 6252574236907101026) (.leaf 6065326862517959842)))) (.node (.node (.node (.leaf 5990443266537623164) (.leaf 9866129412469282569)) (.node (.leaf 7525913778407860552) (.leaf 12864838101477755278))) (.node (.node (.leaf 16151193807800961653) (.leaf 14431860385527315885)) (.node (.leaf 1998515161495497663) (.leaf 8067937741118005066))))) (.node (.node (.node (.node (.leaf 8628173052353655723) (.leaf 15867786468360894926)) (.node (.leaf 15421517406305499903) (.leaf 15944258613693435946))) (.node (.node (.leaf 2026110597209371480) (.leaf 8811292662928244712)) (.node (.leaf 4472198709265813812) (.leaf 1570445592450313755)))) (.node (.node (.node (.leaf 17752290303884473749) (.leaf 28632991002845024)) (.node (.leaf 7039680959239411271) (.leaf 15665450600443825567))) (.node (.node (.leaf 17311706750841976619) (.leaf 16033654536802734279)) (.node (.leaf 7700101131386837135) (.leaf 16657533949882444803))))))) (.node (.node (.node (.node (.node (.node (.leaf 5602273714418528465) (.leaf 17163341873773584776)) (.node (.leaf 12730642585502733274) (.leaf 10435333585716551472))) (.node (.node (.leaf 4662794266431090432) (.leaf 4014859898396633171)) (.node (.leaf 11175686602955962265) (.leaf 17937386560289445816)))) (.node (.node (.node (.leaf 2304412790625362307) (.leaf 6477006956772103012)) (.node (.leaf 3316314046105741638) (.leaf 2400907223711461145))) (.node (.node (.leaf 7598847295036223979) (.leaf 15119616456811393425)) (.node (.leaf 9738609191084813022) (.leaf 261128005416236148))))) (.node (.node (.node (.node (.leaf 6275066997640117847) (.leaf 11935395228572781508)) (.node (.leaf 12397130215779417308) (.leaf 3667911169960935191))) (.node (.node (.leaf 9877657222145836674) (.leaf 17043509824206564741)) (.node (.leaf 5782778116035085697) (.leaf 1396738298125807520)))) (.node (.node (.node (.leaf 16916825916632954141) (.leaf 7978317204638726412)) (.node (.leaf 17407804261770049388) (.leaf 8550504897547165720))) (.node (.node (.leaf 18111121690291408164) (.leaf 14522070828245631070)) (.node (.leaf 787273921178509765) (.leaf 17258894553979276170)))))) (.node (.node (.node (.node (.node (.leaf 15820460197211493180) (.leaf 16831951533829677745)) (.node (.leaf 13173804118329757736) (.leaf 9085578378773067866))) (.node (.node (.leaf 12514987451018878616) (.leaf 3577305059911634357)) (.node (.leaf 11669500648499353549) (.leaf 12675455550579070996)))) (.node (.node (.node (.leaf 10677458581018474244) (.leaf 5964737018673894769)) (.node (.leaf 130690992991720077) (.leaf 15516647020202790480))) (.node (.node (.leaf 3754402537078627260) (.leaf 11856303336194356964)) (.node (.leaf 17445743091803292677) (.leaf 11285199350135144478))))) (.node (.node (.node (.node (.leaf 14120294188477011600) (.leaf 10559620824126360779)) (.node (.leaf 5139346226629770090) (.leaf 10949196008256634352))) (.node (.node (.leaf 4268426832029652037) (.leaf 5032606023716184186)) (.node (.leaf 2616366164255283725) (.leaf 8203729137872007836)))) (.node (.node (.node (.leaf 3687034552373690260) (.leaf 9448406087928197843)) (.node (.leaf 13526163828477292775) (.leaf 171024998069304573))) (.node (.node (.leaf 8972390137292565997) (.leaf 711535798011882813)) (.node (.leaf 7283327301963363850) (.leaf 13302526575095793414)))))))) (.node (.node (.node (.node (.node (.node (.node (.leaf 14987483871974678130) (.leaf 10284857317848485824)) (.node (.leaf 9432266813687704211) (.leaf 8897350999976612195))) (.node (.node (.leaf 10974583779742283814) (.leaf 2515574614974186870)) (.node (.leaf 18015241662869346568) (.leaf 3086441620754182687)))) (.node (.node (.node (.leaf 13241227383366844519) (.leaf 10005528468778414636)) (.node (.leaf 7838862234567779829) (.leaf 4924735341964607415))) (.node (.node (.leaf 7422272889479109752) (.leaf 6654668085883710759)) (.node (.leaf 6703511408505132585) (.leaf 840497781400971313))))) (.node (.node (.node (.node (.leaf 4164238756451026913) (.leaf 4581189756684760661)) (.node (.leaf 9255114182607916256) (.leaf 12822290165352809999))) (.node (.node (.leaf 15299005990524592820) (.leaf 1100032609703262668)) (.node (.leaf 12365445795512430156) (.leaf 11059694901888307049)))) (.node (.node (.node (.leaf 15354763403495212346) (.leaf 4860193174816214411)) (.node (.leaf 14009297276683940701) (.leaf 18012682367266200929))) (.node (.node (.leaf 4326927994930059904) (.leaf 5858102374290798828)) (.node (.leaf 4827267378739010399) (.leaf 8473177713331885934)))))) (.node (.node (.node (.node (.node (.leaf 3838107578161480086) (.leaf 6559131987710244173)) (.node (.leaf 15635598921363909798) (.leaf 17609461229265866453))) (.node (.node (.leaf 17547604593947431450) (.leaf 16567900000421139558)) (.node (.leaf 14846733876324164409) (.leaf 2971640354793286519)))) (.node (.node (.node (.leaf 10774748117165890592) (.leaf 16964650664722424489)) (.node (.leaf 479120362643728475) (.leaf 9583615425320198663))) (.node (.node (.leaf 16766637203876887547) (.leaf 15050665681652581171)) (.node (.leaf 14356201212122034634) (.leaf 370325898065409080))))) (.node (.node (.node (.node (.leaf 8330261680796371090) (.leaf 1275493756078233977)) (.node (.leaf 7160388696295440120) (.leaf 4746907860242137249))) (.node (.node (.leaf 9183815424355782454) (.leaf 1884483283773043942)) (.node (.leaf 2752594945022909822) (.leaf 15772679538703392984)))) (.node (.node (.node (.leaf 16138249619067180141) (.leaf 8085681788793602469)) (.node (.leaf 1441233097934863092) (.leaf 7882657927130466039))) (.node (.node (.leaf 15182371514862075582) (.leaf 3117036928620402239)) (.node (.leaf 12279493319802034738) (.leaf 3926206008959770294))))))) (.node (.node (.node (.node (.node (.node (.leaf 14664249484921285796) (.leaf 11697145965874144720)) (.node (.leaf 12207054583292907954) (.leaf 13849101384411142466))) (.node (.node (.leaf 9022800141550233170) (.leaf 553168672855676360)) (.node (.leaf 7239539618505859239) (.leaf 13951618966407893065)))) (.node (.node (.node (.leaf 5458787622326440890) (.leaf 18271158767411422927)) (.node (.leaf 12117268673034994500) (.leaf 14203744008139218361))) (.node (.node (.leaf 18332587439647656245) (.leaf 6549382421274502028)) (.node (.leaf 5327961050435488944) (.leaf 3475032871459710019))))) (.node (.node (.node (.node (.leaf 14271147682482899726) (.leaf 14797599353173947681)) (.node (.leaf 1643165020481520282) (.leaf 17098767883068955902))) (.node (.node (.leaf 16243457842903574290) (.leaf 11492867268859823274)) (.node (.leaf 638854103248772348) (.leaf 5334548288112616861)))) (.node (.node (.node (.leaf 7737261051300535569) (.leaf 8758591663906277358)) (.node (.leaf 10519136025950644210) (.leaf 6782728642509539137))) (.node (.node (.leaf 13063209817960402021) (.leaf 1193997724727594600)) (.node (.leaf 17859176956009112020) (.leaf 14139797561449867823)))))) (.node (.node (.node (.node (.node (.leaf 6179821140893860233) (.leaf 8248989419081839041)) (.node (.leaf 12064390131787563465) (.leaf 1758598565003128443))) (.node (.node (.leaf 983085985981811281) (.leaf 1067020253530204478)) (.node (.leaf 13677386426361740043) (.leaf 3391870380357128815)))) (.node (.node (.node (.leaf 14607722393425318551) (.leaf 17706607463491493625)) (.node (.leaf 8359691480030839762) (.leaf 5070373156230541091))) (.node (.node (.leaf 16584541238282724885) (.leaf 2319000895259605747)) (.node (.leaf 18222076465564965626) (.leaf 10596640916670065110))))) (.node (.node (.node (.node (.leaf 15249821708451440668) (.leaf 912201342925876046)) (.node (.leaf 16452604533281498447) (.leaf 13460249161109820905))) (.node (.node (.leaf 6979244958431037567) (.leaf 12002759022678805475)) (.node (.leaf 4398110561609070867) (.leaf 10874516350786518387)))) (.node (.node (.node (.leaf 18435131436330013859) (.leaf 13724198282316561094)) (.node (.leaf 13352692802102535407) (.leaf 11361253941105793110))) (.node (.node (.leaf 10133442140033563737) (.leaf 5703008858200588987)) (.node (.leaf 3262413681881356467) (.leaf 11139845140605503533)))))))))
noncomputable def g3_3 : Tree := (.node (.node (.node (.node (.node (.node (.node (.node (.leaf 4887269251944381147) (.leaf 11034074511537746884)) (.node (.leaf 12314957218297923380) (.leaf 15041619864931821434))) (.node (.node (.leaf 4600811644777421920) (.leaf 10990752170521973765)) (.node (.leaf 6073163734103543570) (.leaf 3891005535434984236)))) (.node (.node (.node (.leaf 5558122186563916019) (.leaf 13119249928800259819)) (.node (.leaf 13712950510602105412) (.leaf 14927000920938324445))) (.node (.node (.leaf 9267599502273302485) (.leaf 3802016083197797028)) (.node (.leaf 5416373957946688208) (.leaf 6720525592657675622))))) (.node (.node (.node (.node (.leaf 12600723716772412485) (.leaf 17307505515290712198)) (.node (.leaf 7368728996447829743) (.leaf 11533064110982890744))) (.node (.node (.leaf 10942377106859705368) (.leaf 7314848247152081265)) (.node (.leaf 14075030667713920506) (.leaf 8198531352976524830)))) (.node (.node (.node (.leaf 16460513274451170544) (.leaf 17534912228730587158)) (.node (.leaf 1593028540510571776) (.leaf 423269263303404988))) (.node (.node (.leaf 14734877551131143757) (.leaf 2128219821225516970)) (.node (.leaf 16850132468584795326) (.leaf 2913145210243791839)))))) (.node (.node (.node (.node (.node (.leaf 1544287496358219053) (.leaf 1261403208515675129)) (.node (.leaf 13241033282286040193) (.leaf 2547878327623532628))) (.node (.node (.leaf 9392068900378329972) (.leaf 9855755547676454341)) (.node (.leaf 6029748769309880245) (.leaf 11455854760522619905)))) (.node (.node (.node (.leaf 10333010494207806224) (.leaf 40605252339703461)) (.node (.leaf 10130722454680382638) (.leaf 7110850840087243639))) (.node (.node (.leaf 5389690950817346434) (.leaf 15101085879340671107)) (.node (.leaf 4768243855702704239) (.leaf 10742845186090052275))))) (.node (.node (.node (.node (.leaf 5631169071079580312) (.leaf 11489713702707287212)) (.node (.leaf 13908970081633997783) (.leaf 11137182330517223666))) (.node (.node (.leaf 8381476088361752636) (.leaf 3168503126747279656)) (.node (.leaf 1138148154549118271) (.leaf 4132572800482470464)))) (.node (.node (.node (.leaf 798210758207365097) (.leaf 17657122182042352977)) (.node (.leaf 9673320787466366873) (.leaf 6820309061660120089))) (.node (.node (.leaf 94504767163589518) (.leaf 15340358472609411282)) (.node (.leaf 5209507183069346931) (.leaf 13594571928557817180))))))) (.node (.node (.node (.node (.node (.node (.leaf 7953428716092289111) (.leaf 16545229048687284324)) (.node (.leaf 12746994166511996442) (.leaf 16035389758569430793))) (.node (.node (.leaf 4717389864285360433) (.leaf 7004657651953045065)) (.node (.leaf 4490895187952980484) (.leaf 16979415388698352072)))) (.node (.node (.node (.leaf 7530133632842339171) (.leaf 11339050146372302755)) (.node (.leaf 14570318923770873085) (.leaf 18030845949344062781))) (.node (.node (.leaf 14335272935572925063) (.leaf 12521437262853999072)) (.node (.leaf 17436356049267073570) (.leaf 9012507749940292498))))) (.node (.node (.node (.node (.leaf 16361207468894420044) (.leaf 17237373956278563446)) (.node (.leaf 14654677318149808321) (.leaf 15171487458658145591))) (.node (.node (.leaf 9099325669994372250) (.leaf 16121276406156280673)) (.node (.leaf 15221367968882737533) (.leaf 17057279542686833388)))) (.node (.node (.node (.leaf 2600186135193631398) (.leaf 4223916943515618550)) (.node (.leaf 2385918225681156529) (.leaf 8232611397354218591))) (.node (.node (.leaf 4301476746894410131) (.leaf 17740351052516417034)) (.node (.leaf 8120973244099130827) (.leaf 10165048155831079272)))))) (.node (.node (.node (.node (.node (.leaf 11963698188148039728) (.leaf 289856721351315376)) (.node (.leaf 9561841405820537449) (.leaf 2793530376468780581))) (.node (.node (.leaf 7663640220125561095) (.leaf 7830556253069131591)) (.node (.leaf 13990972766293671631) (.leaf 1835902285378463964)))) (.node (.node (.node (.leaf 11714650399514908482) (.leaf 4362426434606893582)) (.node (.leaf 9786046131144035381) (.leaf 15664304101268822988))) (.node (.node (.leaf 1180238058639160440) (.leaf 10289016322639206749)) (.node (.leaf 12987207629235158673) (.leaf 4104179830444056390))))) (.node (.node (.node (.node (.leaf 12884367806248604634) (.leaf 15348588224714977197)) (.node (.leaf 3472794419841632185) (.leaf 13102425835022432674))) (.node (.node (.leaf 13542335376692033890) (.leaf 9998778117033469566)) (.node (.leaf 5086318659691442717) (.leaf 10877313405764382359)))) (.node (.node (.node (.leaf 10715250078761134443) (.leaf 3537322224816614428)) (.node (.leaf 15537505848362802571) (.leaf 12115749975163679109))) (.node (.node (.leaf 14818883059085156199) (.leaf 3389056463985925443)) (.node (.leaf 7434903227491131029) (.leaf 3323558396483412991)))))))) (.node (.node (.node (.node (.node (.node (.node (.leaf 7148323956543774017) (.leaf 5522541691232146034)) (.node (.leaf 3635863544148059704) (.leaf 14240155832920995341))) (.node (.node (.leaf 11907319006413581762) (.leaf 15894573686845171409)) (.node (.leaf 15615670126274288140) (.leaf 13345961069967304064)))) (.node (.node (.node (.leaf 2273540521007405518) (.leaf 1735211116168024804)) (.node (.leaf 16575795307031532835) (.leaf 2834474974729680555))) (.node (.node (.leaf 16669394432254019796) (.leaf 6393847417564359619)) (.node (.leaf 4466541682934621328) (.leaf 18211694031730820819))))) (.node (.node (.node (.node (.leaf 5004718955347703001) (.leaf 213765607896008233)) (.node (.leaf 8011893113079487174) (.leaf 17582650614029662219))) (.node (.node (.leaf 8971013659912979001) (.leaf 17469803300622674691)) (.node (.leaf 3310733027389955835) (.leaf 7271980085152247781)))) (.node (.node (.node (.leaf 915719704209720682) (.leaf 12353572730840527775)) (.node (.leaf 2078987109445812513) (.leaf 16751182574085254304))) (.node (.node (.leaf 18009601585561271527) (.leaf 8919477996219803902)) (.node (.leaf 8748177123168780201) (.leaf 11253886370007916950)))))) (.node (.node (.node (.node (.node (.leaf 3042540039115253042) (.leaf 2961518925307969657)) (.node (.leaf 15717041199122352974) (.leaf 6548428072392883645))) (.node (.node (.leaf 557687733996164424) (.leaf 1486550583933777594)) (.node (.leaf 12094502030671340603) (.leaf 17882462654474259427)))) (.node (.node (.node (.leaf 14463843456174697811) (.leaf 16144283061202281919)) (.node (.leaf 13873261829053280969) (.leaf 6182673665578305460))) (.node (.node (.leaf 1369956953932869939) (.leaf 3234339621679135206)) (.node (.leaf 15796554970616575210) (.leaf 244058709849963447))))) (.node (.node (.node (.node (.leaf 750060681252756392) (.leaf 3999791651477538716)) (.node (.leaf 9923889719491991102) (.leaf 2012496374792640137))) (.node (.node (.leaf 11753811141191527959) (.leaf 7575390138845751734)) (.node (.leaf 8464116347169694061) (.leaf 1318518871617451919)))) (.node (.node (.node (.leaf 12194666797720095181) (.leaf 12393936481066089224)) (.node (.leaf 7861696276636120522) (.leaf 4631484870074423254))) (.node (.node (.leaf 1686987355627606177) (.leaf 1032208719058931727)) (.node (.leaf 12679371636058835535) (.leaf 6616084183123541306))))))) (.node (.node (.node (.node (.node (.node (.leaf 16260527807232962226) (.leaf 16891531724481986172)) (.node (.leaf 2326735421871982069) (.leaf 9323784280585512861))) (.node (.node (.leaf 694267555338125855) (.leaf 3676070217178813994)) (.node (.leaf 18433473823004576895) (.leaf 8673504289519131608)))) (.node (.node (.node (.leaf 17117759644731131910) (.leaf 15423588390567958007)) (.node (.leaf 5946105870262278958) (.leaf 6881091810191401243))) (.node (.node (.leaf 18364748382731118980) (.leaf 6984868330718420135)) (.node (.leaf 5175948966268174116) (.leaf 13298253009555253339))))) (.node (.node (.node (.node (.leaf 11883527717181982255) (.leaf 2732586574768612182)) (.node (.leaf 8832588482588406668) (.leaf 15936259804830230373))) (.node (.node (.leaf 12958614135540600081) (.leaf 3940855485491526343)) (.node (.leaf 11199301869339575188) (.leaf 5807396253075346008)))) (.node (.node (.node (.leaf 10445426263858409903) (.leaf 14865679435047600251)) (.node (.leaf 12772613904201492313) (.leaf 6334472304521827227))) (.node (.node (.leaf 6467035474933413740) (.leaf 6671503626120722506)) (.node (.leaf 4910286150528538782) (.leaf 443220495578386773)))))) (.node (.node (.node (.node (.node (.leaf 14346401115422193393) (.leaf 5297769693316958958)) (.node (.leaf 8574389991826375956) (.leaf 2166003503396975962))) (.node (.node (.leaf 7764336899082627623) (.leaf 2513401208315104885)) (.node (.leaf 14549439123115882517) (.leaf 17178228592933635104)))) (.node (.node (.node (.leaf 18279165831374696530) (.leaf 17824459160539813926)) (.node (.leaf 16355330447678289374) (.leaf 10582763866913335664))) (.node (.node (.leaf 6219966475178517688) (.leaf 5749617719422255853)) (.node (.leaf 13637985141493696592) (.leaf 10492234804838255100))))) (.node (.node (.node (.node (.leaf 9504191290224926722) (.leaf 10624807293835274427)) (.node (.leaf 13806093062503864107) (.leaf 10065510192850928438))) (.node (.node (.leaf 14171227499527344104) (.leaf 8608929678893628270)) (.node (.leaf 983229121656756755) (.leaf 611131249366559969)))) (.node (.node (.node (.leaf 18145766338214623880) (.leaf 11636467589966868621)) (.node (.leaf 13446150862026430795) (.leaf 5857322973924857694))) (.node (.node (.leaf 8306226981198095092) (.leaf 1944884975663589002)) (.node (.leaf 9614178855361221090) (.leaf 9215570929365153728)))))))))
noncomputable def g3 : G := ⟨g3_0, g3_1, g3_2, g3_3, ⟨18342943936147590014, 8796308086964324427, 13805380141984336697⟩⟩

noncomputable def g4_0 : Tree := (.node (.node (.node (.node (.node (.node (.node (.node (.leaf 13238227019192324639) (.leaf 2934722880548348792)) (.node (.leaf 15001844525451162397) (.leaf 6559982110199929083))) (.node (.node (.leaf 2171910829332571223) (.leaf 3658739052456924115)) (.node (.leaf 11598420347279485568) (.leaf 754195143682703203)))) (.node (.node (.node (.leaf 6670474753657303241) (.leaf 17945493940936105092)) (.node (.leaf 526786520679119116) (.leaf 4438486308151988011))) (.node (.node (.leaf 10971435237668782857) (.leaf 14916718309635316229)) (.node (.leaf 17683247801715091293) (.leaf 15308238441367424458))))) (.node (.node (.node (.node (.leaf 5596413064360996731) (.leaf 16414073157207444171)) (.node (.leaf 7279178463343930762) (.leaf 17900641869081018576))) (.node (.node (.leaf 15841121916944969434) (.leaf 5510888315383076778)) (.node (.leaf 17097833201535487540) (.leaf 2299438118816367749)))) (.node (.node (.node (.leaf 6474894742339486133) (.leaf 8839259231913195678)) (.node (.leaf 12774036748956529396) (.leaf 15231427370104622513))) (.node (.node (.leaf 17173721412553105598) (.leaf 349261651177851831)) (.node (.leaf 7685333442419556820) (.leaf 9592948767869213249)))))) (.node (.node (.node (.node (.node (.leaf 12020630684800843410) (.leaf 8923040904564174909)) (.node (.leaf 14515148222913636656) (.leaf 10645928354216033340))) (.node (.node (.leaf 8374174760698787747) (.leaf 12485653833375216431)) (.node (.leaf 13794106726968984849) (.leaf 18429803390330369759)))) (.node (.node (.node (.leaf 5713258838852356457) (.leaf 10403719301250277224)) (.node (.leaf 59937865448997847) (.leaf 9460450055248989611))) (.node (.node (.leaf 5897771824072158318) (.leaf 8681005609897891259)) (.node (.leaf 12737802723915117828) (.leaf 1193093634083060569))))) (.node (.node (.node (.node (.leaf 9949721705764804545) (.leaf 8047032095137870012)) (.node (.leaf 10798733313572688605) (.leaf 2605484256180271882))) (.node (.node (.leaf 15975275225386339007) (.leaf 8160654870349852080)) (.node (.leaf 140347280593543003) (.leaf 15611441203282254970)))) (.node (.node (.node (.leaf 13583860285989049335) (.leaf 1579443133299895491)) (.node (.leaf 1698790704895174578) (.leaf 14461374676887367292))) (.node (.node (.leaf 18153316830887796340) (.leaf 10578462079570223623)) (.node (.leaf 5915288370289595879) (.leaf 16532532377099048962))))))) (.node (.node (.node (.node (.node (.node (.leaf 15898592782974589224) (.leaf 4386513061660276281)) (.node (.leaf 6352011620619385350) (.leaf 2964047088057930047))) (.node (.node (.leaf 16934408451801097184) (.leaf 1899647636422593814)) (.node (.leaf 12995602242712985946) (.leaf 6271848373161915852)))) (.node (.node (.node (.leaf 2669575087890079247) (.leaf 7218129449789735336)) (.node (.leaf 13885933385439124041) (.leaf 12226535887682712105))) (.node (.node (.leaf 3960507639754224672) (.leaf 592882582371318039)) (.node (.leaf 11161528539292239800) (.leaf 13112046308982293856))))) (.node (.node (.node (.node (.leaf 14271107163987349092) (.leaf 1306959537216513735)) (.node (.leaf 12891036328873508432) (.leaf 2095880339048812692))) (.node (.node (.leaf 3797262971169500215) (.leaf 13984070721189205141)) (.node (.leaf 8457190710008449439) (.leaf 7947663318721024294)))) (.node (.node (.node (.leaf 4169942156545832102) (.leaf 18232596255708786755)) (.node (.leaf 4547409883426146126) (.leaf 9184553065133873988))) (.node (.node (.leaf 9150637801766954144) (.leaf 5129098287097393515)) (.node (.leaf 10241299481497837718) (.leaf 16321388787672752058)))))) (.node (.node (.node (.node (.node (.leaf 3599544930780619217) (.leaf 10502531079252677425)) (.node (.leaf 4842068190693014190) (.leaf 10344566075631376492))) (.node (.node (.leaf 2033391505759448821) (.leaf 2774831624095868443)) (.node (.leaf 4507165138323152017) (.leaf 15438077667667845696)))) (.node (.node (.node (.leaf 17516118528747047409) (.leaf 13466948358085309234)) (.node (.leaf 1469700238931314533) (.leaf 7168585235232993027))) (.node (.node (.leaf 1263672977043531996) (.leaf 1384308073828286578)) (.node (.leaf 11292815531565222636) (.leaf 14384926118229533690))))) (.node (.node (.node (.node (.leaf 15375215818051320098) (.leaf 189958450487154905)) (.node (.leaf 11516291234466002960) (.leaf 16098873034361307119))) (.node (.node (.leaf 6162808623355476549) (.leaf 13481891241532061827)) (.node (.leaf 16211483882288586495) (.leaf 14577706901999928984)))) (.node (.node (.node (.leaf 16046329672321267319) (.leaf 11961080914785408618)) (.node (.leaf 4761050281197881369) (.leaf 16834588474410023859))) (.node (.node (.leaf 7566030740807554110) (.leaf 13946278179888349890)) (.node (.leaf 17782394534411256109) (.leaf 14801284464396263565)))))))) (.node (.node (.node (.node (.node (.node (.node (.leaf 10113501414516506166) (.leaf 13731585796643003666)) (.node (.leaf 13671050884130083302) (.leaf 12377083119446937213))) (.node (.node (.leaf 2831844215665289636) (.leaf 9732075674072569419)) (.node (.leaf 16598022518020896701) (.leaf 18016735231206602986)))) (.node (.node (.node (.leaf 16870314010186401357) (.leaf 2478884016117150319)) (.node (.leaf 10078948983638449011) (.leaf 1833818443618559661))) (.node (.node (.leaf 1053682702721812660) (.leaf 14639488177107008761)) (.node (.leaf 11780301267059264738) (.leaf 4215268057938401230))))) (.node (.node (.node (.node (.leaf 14250229395370323140) (.leaf 9335235128023431651)) (.node (.leaf 15653644944549218853) (.leaf 8071906302118898648))) (.node (.node (.leaf 993267575573158145) (.leaf 3707219712368043745)) (.node (.leaf 6764721067303256307) (.leaf 7386174106660638750)))) (.node (.node (.node (.leaf 12618742521693763414) (.leaf 12048806742718731660)) (.node (.leaf 18170499868126934390) (.leaf 11206513179597954205))) (.node (.node (.leaf 16483021969038659394) (.leaf 3177474815027446300)) (.node (.leaf 9405893080772547013) (.leaf 1639698318107793717)))))) (.node (.node (.node (.node (.node (.leaf 7446234058910967805) (.leaf 9049804445540083538)) (.node (.leaf 8993770894718223745) (.leaf 3399167517779202258))) (.node (.node (.leaf 259821503608531480) (.leaf 8328982774075201246)) (.node (.leaf 17323582262207501517) (.leaf 9888776620091422369)))) (.node (.node (.node (.leaf 9569975835388677179) (.leaf 6216269580027481958)) (.node (.leaf 6054723521122693568) (.leaf 5072359723848433061))) (.node (.node (.leaf 15769318659551624816) (.leaf 8752767589737516179)) (.node (.leaf 3968563391215003724) (.leaf 13303301562510741299))))) (.node (.node (.node (.node (.leaf 6970537037194695586) (.leaf 14891389111285001145)) (.node (.leaf 11412862863875516728) (.leaf 13161117543908192842))) (.node (.node (.leaf 4748822064233866261) (.leaf 3876903567785797031)) (.node (.leaf 924124750711136382) (.leaf 10177446058983224473)))) (.node (.node (.node (.leaf 11885025595783098695) (.leaf 3380724916391002806)) (.node (.leaf 7826601931481562438) (.leaf 16763633178956075753))) (.node (.node (.leaf 15543388532542310433) (.leaf 7869084695334714859)) (.node (.leaf 11047460515124372214) (.leaf 4963885338370202354))))))) (.node (.node (.node (.node (.node (.node (.leaf 17387590055296275758) (.leaf 6524257541429126126)) (.node (.leaf 4078548094439082197) (.leaf 2336259708117605726))) (.node (.node (.leaf 8588450395821723751) (.leaf 16655979969435807472)) (.node (.leaf 9674292879831720536) (.leaf 2445307713188391126)))) (.node (.node (.node (.leaf 17608687171430352002) (.leaf 17840132684286622343)) (.node (.leaf 12965363953393306381) (.leaf 7743264171602055699))) (.node (.node (.leaf 2522020247919101775) (.leaf 14077104635472158620)) (.node (.leaf 10732499719847297929) (.leaf 13374658914454406682))))) (.node (.node (.node (.node (.leaf 5317745705391932769) (.leaf 12154720564883339144)) (.node (.leaf 17222237082646250023) (.leaf 10922893759522127140))) (.node (.node (.leaf 16265635019284808590) (.leaf 9804011768696509595)) (.node (.leaf 5834894549001415021) (.leaf 10826362478169021903)))) (.node (.node (.node (.leaf 1104538337585343976) (.leaf 11621773335330603008)) (.node (.leaf 1790896653967749595) (.leaf 1996981102838425848))) (.node (.node (.leaf 15126739514447058513) (.leaf 413934354735365357)) (.node (.leaf 17452434922474790575) (.leaf 4315063897947409521)))))) (.node (.node (.node (.node (.node (.leaf 5015354481660030818) (.leaf 3521223266544574803)) (.node (.leaf 15143173508295111596) (.leaf 5668063200337029766))) (.node (.node (.leaf 8540028274646674760) (.leaf 9294571525898108707)) (.node (.leaf 5427842424645592362) (.leaf 14188841422179265338)))) (.node (.node (.node (.leaf 6853570522094373759) (.leaf 7025021665880267237)) (.node (.leaf 3133995521822083851) (.leaf 18373507234381811428))) (.node (.node (.leaf 445254116981245579) (.leaf 5237503486156021113)) (.node (.leaf 653030094304458135) (.leaf 11680896539129158408))))) (.node (.node (.node (.node (.leaf 6811440632236679444) (.leaf 6037368474738408492)) (.node (.leaf 4642523920046287455) (.leaf 3045350280729716168))) (.node (.node (.leaf 12272622159163966608) (.leaf 11321429593441068486)) (.node (.leaf 3256102081469040988) (.leaf 7094533932265543508)))) (.node (.node (.node (.leaf 5356908091052322812) (.leaf 8284533418991311759)) (.node (.leaf 12410136940478053134) (.leaf 12561116938969202601))) (.node (.node (.leaf 820700191710538581) (.leaf 17074210561475064949)) (.node (.leaf 14740678498836931738) (.leaf 7623242143854036222)))))))))
noncomputable def g4_1 : Tree := (.node (.node (.node (.node (.node (.node (.node (.node (.leaf 13066575488593288470) (.leaf 3449737079720913257)) (.node (.leaf 9187069055694700316) (.leaf 15240384312944832285))) (.node (.node (.leaf 6874293430397307218) (.leaf 6668279985189163255)) (.node (.leaf 11194685206983623267) (.leaf 709735849001111016)))) (.node (.node (.node (.leaf 14432339609668319041) (.leaf 815255411981232935)) (.node (.leaf 1339239253023329822) (.leaf 13001231525801057291))) (.node (.node (.leaf 9330698630105275816) (.leaf 1592882411064868672)) (.node (.leaf 9628249744205733717) (.leaf 16045487148872104447))))) (.node (.node (.node (.node (.leaf 3791359466325569269) (.leaf 11360688666601142462)) (.node (.leaf 2243223806674905976) (.leaf 4806810603873278012))) (.node (.node (.leaf 12669381225305946990) (.leaf 4886324064206851211)) (.node (.leaf 298336615879334562) (.leaf 3098687921158283910)))) (.node (.node (.node (.leaf 11043576276314423730) (.leaf 14659021381668762972)) (.node (.leaf 18199856593226615213) (.leaf 6325840355920122769))) (.node (.node (.leaf 17004287640724366272) (.leaf 6015079580288572689)) (.node (.leaf 10257708068064588714) (.leaf 963971327465618867)))))) (.node (.node (.node (.node (.node (.leaf 2355535959066417772) (.leaf 13399474122403046652)) (.node (.leaf 12330795689836267152) (.leaf 18081514219062951535))) (.node (.node (.leaf 13486965377226808790) (.leaf 15093515488548467322)) (.node (.leaf 17902802475079311601) (.leaf 7474366291803557068)))) (.node (.node (.node (.leaf 3205200432288122276) (.leaf 5873142076694213237)) (.node (.leaf 2049849128282846814) (.leaf 10479976091712203904))) (.node (.node (.leaf 15992710340216384451) (.leaf 16372320692042023810)) (.node (.leaf 2763498749039081487) (.leaf 7851837915461736722))))) (.node (.node (.node (.node (.leaf 10373727518327434392) (.leaf 16508296997944311114)) (.node (.leaf 13311937700083999727) (.leaf 2505723452774417276))) (.node (.node (.leaf 10076573705591064362) (.leaf 14896965208242864326)) (.node (.leaf 193420838872902842) (.leaf 15392245741709785445)))) (.node (.node (.node (.leaf 8829758411057894574) (.leaf 1456970790071823652)) (.node (.leaf 6147978159314032271) (.leaf 7766495473009952035))) (.node (.node (.leaf 8934563088052791121) (.leaf 8737026707053969666)) (.node (.leaf 7517657526895010451) (.leaf 14839986793497714435))))))) (.node (.node (.node (.node (.node (.node (.leaf 3315064399454770553) (.leaf 14277660193754674070)) (.node (.leaf 13936534015021186136) (.leaf 7588019261875524456))) (.node (.node (.leaf 10522586385792885838) (.leaf 8380169513660285110)) (.node (.leaf 17539964000889756457) (.leaf 14243254049585532203)))) (.node (.node (.node (.leaf 16913096489705070802) (.leaf 5831901355893391287)) (.node (.leaf 1082593410119094917) (.leaf 17716396960701152260))) (.node (.node (.leaf 14177668572948632121) (.leaf 3669609148835900710)) (.node (.leaf 10911052922674663388) (.leaf 494448719757560468))))) (.node (.node (.node (.node (.leaf 6379221506845788279) (.leaf 5342713100627648221)) (.node (.leaf 17192653261305341419) (.leaf 7329998500489849469))) (.node (.node (.leaf 6450273181174919200) (.leaf 274147541647826156)) (.node (.leaf 9513915683508430590) (.leaf 6620421171511570644)))) (.node (.node (.node (.leaf 12176054522615124640) (.leaf 6119023051035354297)) (.node (.leaf 17602546695833058100) (.leaf 14041051315085877560))) (.node (.node (.leaf 8621706665404133861) (.leaf 5552762242895909363)) (.node (.leaf 17060912659590194992) (.leaf 14753803716189076064)))))) (.node (.node (.node (.node (.node (.leaf 13145629510536785858) (.leaf 11287151474097132181)) (.node (.leaf 13622138619867979330) (.leaf 1393408599624686574))) (.node (.node (.leaf 16496821292108552142) (.leaf 15750779909952155463)) (.node (.leaf 12775544400519723617) (.leaf 13436402079279791055)))) (.node (.node (.node (.leaf 15552824365407383642) (.leaf 7226710069867161601)) (.node (.leaf 18109308741102079902) (.leaf 17355427405240829851))) (.node (.node (.leaf 11142962806019559817) (.leaf 4136499220399813196)) (.node (.leaf 3591697205026959678) (.leaf 11853092806728079173))))) (.node (.node (.node (.node (.leaf 1890685414384055438) (.leaf 14090457184279471622)) (.node (.leaf 8457172077024816851) (.leaf 16177645032006592880))) (.node (.node (.leaf 11987532061676949271) (.leaf 9746660845827362647)) (.node (.leaf 13564588897707536886) (.leaf 15673965638473413858)))) (.node (.node (.node (.leaf 10440421658111035341) (.leaf 8296207111997472752)) (.node (.leaf 10595542913678464478) (.leaf 16827353866145687186))) (.node (.node (.leaf 2605889326244177288) (.leaf 3702684934906494075)) (.node (.leaf 16773593504898466727) (.leaf 1813996300140173999)))))))) (.node (.node (.node (.node (.node (.node (.node (.leaf 5973459032063993817) (.leaf 2894257532292908966)) (.node (.leaf 9950894502307111982) (.leaf 18267861162889712715))) (.node (.node (.leaf 15879171962291046053) (.leaf 5075959102569549489)) (.node (.leaf 10763463962323609707) (.leaf 15329972115716627212)))) (.node (.node (.node (.leaf 1526908567704603412) (.leaf 5202970312756549893)) (.node (.leaf 3979687877468998596) (.leaf 6965905598389593516))) (.node (.node (.leaf 6528751203175205437) (.leaf 17965762284554999926)) (.node (.leaf 6813000876455284874) (.leaf 73306023371757326))))) (.node (.node (.node (.node (.leaf 5319144819281599515) (.leaf 17137155567746423754)) (.node (.leaf 12926389175190470122) (.leaf 3861730974945232254))) (.node (.node (.leaf 12263042967989771964) (.leaf 2827248324742988065)) (.node (.leaf 2428254082353884977) (.leaf 4068104731391780549)))) (.node (.node (.node (.leaf 18337584467057350970) (.leaf 16579122135422670355)) (.node (.leaf 12249450203852642431) (.leaf 9812999571632149873))) (.node (.node (.leaf 9502036589667510102) (.leaf 47088056076928141)) (.node (.leaf 15133510155374256173) (.leaf 14501260887854367744)))))) (.node (.node (.node (.node (.node (.leaf 1231563657711642632) (.leaf 16111933981478583652)) (.node (.leaf 5545353636138434600) (.leaf 4492088473058445513))) (.node (.node (.leaf 15486288144219951521) (.leaf 1965025955801561291)) (.node (.leaf 17778149370752726779) (.leaf 1066877102036896749)))) (.node (.node (.node (.leaf 17449079930556279050) (.leaf 11666502042321724244)) (.node (.leaf 9714423784222721412) (.leaf 16686731089280533554))) (.node (.node (.leaf 16328843256225367028) (.leaf 11890295993409997786)) (.node (.leaf 12453828573660474778) (.leaf 1676500149272833735))))) (.node (.node (.node (.node (.leaf 7703729378834208944) (.leaf 9874483474553448501)) (.node (.leaf 2146743922485398575) (.leaf 4986338590784981350))) (.node (.node (.leaf 538947114655129479) (.leaf 15594903444408369394)) (.node (.leaf 11472272126467658587) (.leaf 8542655433305098933)))) (.node (.node (.node (.leaf 2579281295691567177) (.leaf 5411853243962478093)) (.node (.leaf 12840116266562361753) (.leaf 14967247704430375355))) (.node (.node (.leaf 4944881428088879829) (.leaf 14355182335485786419)) (.node (.leaf 9378338402325162855) (.leaf 10205484193350137442))))))) (.node (.node (.node (.node (.node (.node (.leaf 729288459630739993) (.leaf 5742528979464645226)) (.node (.leaf 8669307901384365850) (.leaf 17844926674463733075))) (.node (.node (.leaf 6225277365892557858) (.leaf 11744355964112385847)) (.node (.leaf 10722112077131016611) (.leaf 12037529913969650345)))) (.node (.node (.node (.leaf 631232896128101885) (.leaf 12558211296621024024)) (.node (.leaf 3907984231884978079) (.leaf 16261648521897331168))) (.node (.node (.leaf 13890225206957442655) (.leaf 7998165513593614864)) (.node (.leaf 9145864644317366984) (.leaf 13231853242114475634))))) (.node (.node (.node (.node (.leaf 10985933571225539815) (.leaf 4650073080771998729)) (.node (.leaf 11455129810281960927) (.leaf 7042493203735906420))) (.node (.node (.leaf 2221919020566558948) (.leaf 18444806313474460949)) (.node (.leaf 8156607495408468333) (.leaf 4424030262424403463)))) (.node (.node (.node (.leaf 3522467895471740607) (.leaf 12513281899212131577)) (.node (.leaf 12722548563613395545) (.leaf 372966805015437265))) (.node (.node (.leaf 1158335164078498281) (.leaf 8998507939440769751)) (.node (.leaf 7077833742952612411) (.leaf 3022832489383551816)))))) (.node (.node (.node (.node (.node (.leaf 13796860882030722022) (.leaf 4259645586566722512)) (.node (.leaf 4702240736723116701) (.leaf 11750364511394697331))) (.node (.node (.leaf 10152880498717112620) (.leaf 868892057576263063)) (.node (.leaf 8255368223925153311) (.leaf 8003574949578751132)))) (.node (.node (.node (.leaf 1740708142364081743) (.leaf 10828361119144883636)) (.node (.leaf 9034629447039960132) (.leaf 7187282826984707664))) (.node (.node (.leaf 3293144620965307011) (.leaf 17230902753201771613)) (.node (.leaf 11551007262490395203) (.leaf 5626581037628739212))))) (.node (.node (.node (.node (.leaf 7400809207278089464) (.leaf 15017603969438348621)) (.node (.leaf 2721816917701303871) (.leaf 6707667480452359595))) (.node (.node (.leaf 4543216117056747235) (.leaf 5124065932783313377)) (.node (.leaf 4388848607792021176) (.leaf 9272423179494727734)))) (.node (.node (.node (.leaf 15805612368745306694) (.leaf 17406092455384134619)) (.node (.leaf 3072086988621836538) (.leaf 14556759549273889829))) (.node (.node (.leaf 8075209691746453633) (.leaf 4220294390695940545)) (.node (.leaf 13755350325509699517) (.leaf 7896110739524706776)))))))))
noncomputable def g4_2 : Tree := (.node (.node (.node (.node (.node (.node (.node (.node (.leaf 17237706269911107776) (.leaf 1919497542192767)) (.node (.leaf 6892601987612675057) (.leaf 8173199772219712556))) (.node (.node (.leaf 16536979657733363977) (.leaf 16189759864634739854)) (.node (.leaf 1217584958317656748) (.leaf 8329174991492970110)))) (.node (.node (.node (.leaf 9607837965902503995) (.leaf 7874214487014729828)) (.node (.leaf 5654810363227399118) (.leaf 5402382424489966471))) (.node (.node (.leaf 12983998978637115067) (.leaf 1046467042806545612)) (.node (.leaf 12950115464449695790) (.leaf 14923223245560751481))))) (.node (.node (.node (.node (.leaf 17194335036138723401) (.leaf 10677993388795287077)) (.node (.leaf 12559437789555052099) (.leaf 9216919189287661906))) (.node (.node (.leaf 10085917186220659614) (.leaf 14212546076423896546)) (.node (.leaf 11416512508184392386) (.leaf 16927443873161316359)))) (.node (.node (.node (.leaf 9536924717928478344) (.leaf 8111122448176184641)) (.node (.leaf 15913428824614341136) (.leaf 17930371030576497182))) (.node (.node (.leaf 10214438652215274630) (.leaf 1543549024529802551)) (.node (.leaf 8278618821636604001) (.leaf 12715831030983321304)))))) (.node (.node (.node (.node (.node (.leaf 11803618363374446493) (.leaf 1777365878206514950)) (.node (.leaf 2490297689866375662) (.leaf 6111384124375390130))) (.node (.node (.leaf 2125001367766443216) (.leaf 16375778768141009759)) (.node (.leaf 309230103662941538) (.leaf 4183680843537039373)))) (.node (.node (.node (.leaf 5990443507055829352) (.leaf 18334898415887684208)) (.node (.leaf 1897821619078280248) (.leaf 4292687528509278042))) (.node (.node (.leaf 2532090831334869621) (.leaf 12413098840398337760)) (.node (.leaf 1965582225507085247) (.leaf 14548890512869954790))))) (.node (.node (.node (.node (.leaf 8617758478216082256) (.leaf 3569337627385283092)) (.node (.leaf 15421563583763823359) (.leaf 575894236997687985))) (.node (.node (.leaf 2026241439102436315) (.leaf 13960142265905741373)) (.node (.leaf 4472198816642199239) (.leaf 15761122513200575380)))) (.node (.node (.node (.leaf 17765184276743402901) (.leaf 3143400554051317362)) (.node (.leaf 7039680957711788589) (.leaf 8925159748958554235))) (.node (.node (.leaf 17311562713889960491) (.leaf 15060614209091919924)) (.node (.leaf 7699538182349805808) (.leaf 75458669860742309))))))) (.node (.node (.node (.node (.node (.node (.leaf 5602388899921674705) (.leaf 13695728101339565757)) (.node (.leaf 11073032052257969114) (.leaf 2248441777055700152))) (.node (.node (.leaf 4662794269316771584) (.leaf 14185921904603888815)) (.node (.leaf 11175686658790560033) (.leaf 15269252488134052739)))) (.node (.node (.node (.leaf 10446920916924588339) (.leaf 4768094688575310174)) (.node (.leaf 2883968481878174018) (.leaf 18113464930126606698))) (.node (.node (.leaf 16798293945985692139) (.leaf 3011889376588483592)) (.node (.leaf 9738609191084812996) (.leaf 8940974863202838806))))) (.node (.node (.node (.node (.leaf 6275103281523796311) (.leaf 8494561140336403382)) (.node (.leaf 14414859448613596407) (.leaf 2396468695426695058))) (.node (.node (.leaf 9900375330560122344) (.leaf 4157645997223579050)) (.node (.leaf 5782724239965324797) (.leaf 3980839344644112261)))) (.node (.node (.node (.leaf 5892014028829979933) (.leaf 5025682974676444587)) (.node (.leaf 6526850353632032620) (.leaf 13288165195927291530))) (.node (.node (.leaf 6798079426335894820) (.leaf 3061458496726584614)) (.node (.leaf 15662944776381449669) (.leaf 7076069495073604258)))))) (.node (.node (.node (.node (.node (.leaf 15009249314331382588) (.leaf 10913380087100985768)) (.node (.leaf 9498683203953594408) (.leaf 7450176899474792937))) (.node (.node (.leaf 12515150911550824035) (.leaf 159354506268740806)) (.node (.leaf 11669500648492393677) (.leaf 16683370827913492640)))) (.node (.node (.node (.leaf 9668526211489494788) (.leaf 934060568942637083)) (.node (.leaf 4927869025097962125) (.leaf 17614138789384690076))) (.node (.node (.leaf 3754402537078627260) (.leaf 4421468872715476591)) (.node (.leaf 17485409073286939653) (.leaf 15551148409452213775))))) (.node (.node (.node (.node (.leaf 14093457308666253456) (.leaf 2687882703480859070)) (.node (.leaf 11264241719836867370) (.leaf 7625142209215953039))) (.node (.node (.leaf 12843372907289616335) (.leaf 5413824516587259894)) (.node (.leaf 2653520861684406906) (.leaf 11545786491733509132)))) (.node (.node (.node (.leaf 3686828155220505969) (.leaf 1851095909227425895)) (.node (.leaf 13526163828477269279) (.leaf 3408862020058469505))) (.node (.node (.leaf 3495965389287501293) (.leaf 5761031453771718539)) (.node (.leaf 7283402128880419338) (.leaf 9118691502086925229)))))))) (.node (.node (.node (.node (.node (.node (.node (.leaf 5980291124101471840) (.leaf 14827320346921796414)) (.node (.leaf 9432266046487571091) (.leaf 10576832893936482200))) (.node (.node (.leaf 10992035227700982867) (.leaf 1691197520281065520)) (.node (.leaf 10866058793819909009) (.leaf 11466440264278629351)))) (.node (.node (.node (.leaf 13241228087743250643) (.leaf 10261100993085326869)) (.node (.leaf 13459354165802587637) (.leaf 12641077228261381556))) (.node (.node (.leaf 15925068985837165688) (.leaf 1414918641837169036)) (.node (.leaf 13837213218259998249) (.leaf 12294086576619710062))))) (.node (.node (.node (.node (.leaf 17062548870924143073) (.leaf 18415553933192139275)) (.node (.leaf 9255114182607905435) (.leaf 6711828188341632088))) (.node (.node (.leaf 15298836024726823607) (.leaf 17110270932824904729)) (.node (.leaf 4727340827492081484) (.leaf 9321307515410041598)))) (.node (.node (.node (.leaf 15399882962656691514) (.leaf 13820905837637897203)) (.node (.leaf 6669274038417224541) (.leaf 10600660910103593177))) (.node (.node (.leaf 3175696147629005398) (.leaf 7378960705664003106)) (.node (.leaf 6432739073245436867) (.leaf 12174804331062131484)))))) (.node (.node (.node (.node (.node (.leaf 3838107376298017174) (.leaf 16956541388845291479)) (.node (.leaf 15635598586354429141) (.leaf 5117173163299219622))) (.node (.node (.leaf 9967764948555652122) (.leaf 4873865576611781973)) (.node (.leaf 14846793377190470457) (.leaf 18171625421498075493)))) (.node (.node (.node (.leaf 10805479469896916000) (.leaf 5067504585600613279)) (.node (.leaf 479119954621881947) (.leaf 8649606777934492089))) (.node (.node (.leaf 16766637203876995835) (.leaf 15813811415773687926)) (.node (.leaf 14356169325120397258) (.leaf 6351360823377763400))))) (.node (.node (.node (.node (.leaf 17985979281870989305) (.leaf 3648452557190483842)) (.node (.leaf 7169396108808092152) (.leaf 12349177429244982340))) (.node (.node (.leaf 10324633505500942134) (.leaf 7561181923217248466)) (.node (.leaf 2750596216728345971) (.leaf 726963173919176924)))) (.node (.node (.node (.leaf 16079935942337883501) (.leaf 14752538202629189884)) (.node (.leaf 1441233097934862953) (.leaf 3365454809138056525))) (.node (.node (.leaf 15169874465703460580) (.leaf 4379487411037781658)) (.node (.leaf 840350266281021490) (.leaf 11363503442449971678))))))) (.node (.node (.node (.node (.node (.node (.leaf 14664249486481602724) (.leaf 12245042846280318804)) (.node (.leaf 11702651425026429185) (.leaf 12768037576010263110))) (.node (.node (.leaf 9022799428585662044) (.leaf 8567045300566209258)) (.node (.leaf 1117154422004303783) (.leaf 11131517465455973995)))) (.node (.node (.node (.leaf 7980803315960189882) (.leaf 17571289550057747269)) (.node (.leaf 6568826377267069910) (.leaf 6204683474216355363))) (.node (.node (.leaf 678477286902368565) (.leaf 17435406390853156631)) (.node (.leaf 5294685430532488880) (.leaf 282786739817846530))))) (.node (.node (.node (.node (.leaf 14271147681375603637) (.leaf 18298604292191481823)) (.node (.leaf 1651604661172206926) (.leaf 7245689873257190132))) (.node (.node (.leaf 16243457840269551378) (.leaf 2332365659858204643)) (.node (.leaf 638854103242223529) (.leaf 13158566650881270446)))) (.node (.node (.node (.leaf 7737261094250208529) (.leaf 6163602161947622877)) (.node (.leaf 17724895691736467186) (.leaf 5484312610123498889))) (.node (.node (.leaf 13063209817958567031) (.leaf 13609681023822606972)) (.node (.leaf 17859177090158813652) (.leaf 14025821884227394307)))))) (.node (.node (.node (.node (.node (.leaf 8752220562217664961) (.leaf 1364593657859273792)) (.node (.leaf 12047782393309757897) (.leaf 402378235685121327))) (.node (.node (.leaf 983085982960274001) (.leaf 1270223585744392165)) (.node (.leaf 13660497927759108454) (.leaf 2228705481208690123)))) (.node (.node (.node (.leaf 14607722393291118487) (.leaf 3895252371098249255)) (.node (.leaf 8421897450622127946) (.leaf 11905581834050234265))) (.node (.node (.leaf 16584720459516885636) (.leaf 8000686441345983432)) (.node (.leaf 16060348647119477498) (.leaf 2847026786828717473))))) (.node (.node (.node (.node (.leaf 4060628490084149297) (.leaf 5231348185415323199)) (.node (.leaf 16454156189202752847) (.leaf 7804613244605514776))) (.node (.node (.leaf 6979429309334472820) (.leaf 11968257283286298187)) (.node (.leaf 11889464808625027347) (.leaf 18051363140495843564)))) (.node (.node (.node (.leaf 4599884674244180387) (.leaf 8845960369549649422)) (.node (.leaf 13386635542096276463) (.leaf 10496831073628767360))) (.node (.node (.leaf 10103042840015453273) (.leaf 9859580513193899645)) (.node (.leaf 3270453310903654579) (.leaf 16338468544148811591)))))))))
noncomputable def g4_3 : Tree := (.node (.node (.node (.node (.node (.node (.node (.node (.leaf 17578490542328085211) (.leaf 12644087819471162895)) (.node (.leaf 2875412399329363764) (.leaf 9579850659103365309))) (.node (.node (.leaf 13319941052064357472) (.leaf 11035759134496833554)) (.node (.leaf 2902629862202565637) (.leaf 2624886484999703927)))) (.node (.node (.node (.leaf 6278697567541268726) (.leaf 5687973281862964817)) (.node (.leaf 13712950239297775772) (.leaf 14861386128999760870))) (.node (.node (.leaf 9267598729648950229) (.leaf 9086547972952817828)) (.node (.leaf 5416373789654434512) (.leaf 3775179985863517530))))) (.node (.node (.node (.node (.leaf 12600723716771757125) (.leaf 6026549304715207516)) (.node (.leaf 7404757228779257583) (.leaf 9912687937288263083))) (.node (.node (.leaf 10885228890574415358) (.leaf 2447917751815701589)) (.node (.leaf 14075030666254338810) (.leaf 5081511759378173256)))) (.node (.node (.node (.leaf 15314065694308694256) (.leaf 3341502796586860447)) (.node (.leaf 1593029081542233344) (.leaf 13563699056745583236))) (.node (.node (.leaf 14771182699230834186) (.leaf 1192195655502137081)) (.node (.leaf 5320917422516285664) (.leaf 6088068026033965223)))))) (.node (.node (.node (.node (.node (.leaf 1544287496358219053) (.leaf 1349589617158702706)) (.node (.leaf 13241595703556803713) (.leaf 17699428695200847158))) (.node (.node (.leaf 3987782332898362228) (.leaf 8371149325187052690)) (.node (.leaf 11505957420766621621) (.leaf 1776942857678570634)))) (.node (.node (.node (.leaf 3127251090415012624) (.leaf 6962475931578368003)) (.node (.leaf 10100323156564192430) (.leaf 1408891611158288792))) (.node (.node (.leaf 10196721088408443522) (.leaf 2320114275233153351)) (.node (.leaf 4811591002116145263) (.leaf 11122284668371156418))))) (.node (.node (.node (.node (.leaf 13167245257032426194) (.leaf 15401356073463150272)) (.node (.leaf 17439792190616540119) (.leaf 12397889764877266207))) (.node (.node (.leaf 9822628837660018798) (.leaf 3893585479247210600)) (.node (.leaf 1138148155153098236) (.leaf 16618447289080779461)))) (.node (.node (.node (.leaf 798210440379785193) (.leaf 10358461431500532666)) (.node (.leaf 9666846863002021785) (.leaf 6715017784061156793))) (.node (.node (.leaf 129183364072486773) (.leaf 9213304331764747272)) (.node (.leaf 5209507183069346880) (.leaf 16842691835473055743))))))) (.node (.node (.node (.node (.node (.node (.leaf 7953448509516194647) (.leaf 12348481262000995160)) (.node (.leaf 10636494791135497754) (.leaf 8193067380126022460))) (.node (.node (.leaf 4717271866048347441) (.leaf 16953225285169008849)) (.node (.leaf 4490895187952962532) (.leaf 11644911107969900316)))) (.node (.node (.node (.leaf 5800750781615969123) (.leaf 2788517459147520269)) (.node (.leaf 14570318369720091901) (.leaf 15157266799792869807))) (.node (.node (.leaf 14335433618889432813) (.leaf 9730656150949647598)) (.node (.leaf 17436356049255014946) (.leaf 779097275324046195))))) (.node (.node (.node (.node (.leaf 16397517397282552908) (.leaf 4257127880734902614)) (.node (.leaf 14697461514609827841) (.leaf 3314577897655408042))) (.node (.node (.leaf 6793482662475183011) (.leaf 6663564394807770628)) (.node (.leaf 1026185770643470718) (.leaf 8011642961302906849)))) (.node (.node (.node (.leaf 1447265163171098980) (.leaf 16740328361184979395)) (.node (.leaf 7307788741112891825) (.leaf 15942601974451654528))) (.node (.node (.leaf 17271843781833818515) (.leaf 6462941352459921997)) (.node (.leaf 8134202568004531659) (.leaf 5373997508186229989)))))) (.node (.node (.node (.node (.node (.leaf 11963699070377943088) (.leaf 9053753116916295515)) (.node (.leaf 3196566282492685417) (.leaf 10762959389178857434))) (.node (.node (.leaf 7644499921709236487) (.leaf 10052981873834142073)) (.node (.leaf 15864470211285176772) (.leaf 18035489825485894283)))) (.node (.node (.node (.leaf 11714650399514918466) (.leaf 924204847437880244)) (.node (.leaf 16533495003619331110) (.leaf 16711985024420596125))) (.node (.node (.leaf 2117026926198336888) (.leaf 11345467941044468441)) (.node (.leaf 13028302975822951825) (.leaf 193199956290313972))))) (.node (.node (.node (.node (.leaf 12884411821058183973) (.leaf 17921301890993242722)) (.node (.leaf 6138926022015223577) (.leaf 12261104351754274458))) (.node (.node (.leaf 18181887417807656877) (.leaf 16889455805783428702)) (.node (.leaf 3573297201379570205) (.leaf 15999928990979963040)))) (.node (.node (.node (.leaf 10715250078773193067) (.leaf 10865345681074465594)) (.node (.leaf 3403119604631346474) (.leaf 11937351460243388781))) (.node (.node (.leaf 14818914945439571825) (.leaf 15498899445618730405)) (.node (.leaf 7434958199376289429) (.leaf 16124107916635380880)))))))) (.node (.node (.node (.node (.node (.node (.node (.leaf 7148323956963204417) (.leaf 3482862851277685371)) (.node (.leaf 3635871262194918968) (.leaf 17854523655483404962))) (.node (.node (.leaf 2170765310455085235) (.leaf 14044084294573320472)) (.node (.leaf 15615815259902974476) (.leaf 15696739452722486407)))) (.node (.node (.node (.leaf 2270162821286877552) (.leaf 657422047768321889)) (.node (.leaf 4109895309435647779) (.leaf 13062146918857593486))) (.node (.node (.leaf 16187119357814386388) (.leaf 10259812609157665011)) (.node (.leaf 4395732850638048902) (.leaf 5844700140331023171))))) (.node (.node (.node (.node (.leaf 4976289600917573469) (.leaf 4612905097147274785)) (.node (.leaf 8266234748362250950) (.leaf 18255008305913419916))) (.node (.node (.leaf 8969888127411796793) (.leaf 13917007769978852310)) (.node (.leaf 1854930154191281915) (.leaf 16320062783512654793)))) (.node (.node (.node (.leaf 4323807727106090858) (.leaf 12498663710325416908)) (.node (.leaf 2078996244847018281) (.leaf 8304706359663594068))) (.node (.node (.leaf 18009443805642685667) (.leaf 17650760953519811446)) (.node (.leaf 8748176384266633159) (.leaf 12920006859086862397)))))) (.node (.node (.node (.node (.node (.leaf 3042604908422251826) (.leaf 16483471462101970653)) (.node (.leaf 15717040640776604494) (.leaf 2540345424851148187))) (.node (.node (.leaf 519889711098959134) (.leaf 3863683353048772140)) (.node (.leaf 7050470448024904763) (.leaf 17343316458840758140)))) (.node (.node (.node (.leaf 3727290531831393619) (.leaf 9944634774424038010)) (.node (.leaf 13881143128390496991) (.leaf 15483227671097811085))) (.node (.node (.leaf 7062506884464226807) (.leaf 2704715035209854210)) (.node (.leaf 15793459042218882282) (.leaf 6575947709807960390))))) (.node (.node (.node (.node (.leaf 317534797118237352) (.leaf 9427686207569037380)) (.node (.leaf 9347433970825926206) (.leaf 11565140622939839505))) (.node (.node (.leaf 11753810585144243735) (.leaf 5101955443897433)) (.node (.leaf 7599425219117222533) (.leaf 463969571173049938)))) (.node (.node (.node (.leaf 593597240847321549) (.leaf 5733554959971121599)) (.node (.leaf 7917737284792248522) (.leaf 14422009317011232463))) (.node (.node (.leaf 1687153950744405665) (.leaf 15271757900047288019)) (.node (.leaf 11022218497000426160) (.leaf 4870451606432574700))))))) (.node (.node (.node (.node (.node (.node (.leaf 16283684621633102514) (.leaf 6389447788221323239)) (.node (.leaf 15094440111978284533) (.leaf 1949396821817881622))) (.node (.node (.leaf 11431975093513880306) (.leaf 4059998801091178972)) (.node (.leaf 18416652394611216767) (.leaf 17082473954755168166)))) (.node (.node (.node (.leaf 8686984858407749638) (.leaf 5515361193313247660)) (.node (.leaf 5945999316418690350) (.leaf 12154361997257364611))) (.node (.node (.leaf 18366718707077955516) (.leaf 8492394536901678182)) (.node (.leaf 5175948966263062308) (.leaf 4606574594067543375))))) (.node (.node (.node (.node (.leaf 7848302451058331695) (.leaf 14991585614275113033)) (.node (.leaf 8832588181940667147) (.leaf 14973612533912433429))) (.node (.node (.leaf 11303253200439077769) (.leaf 6556304891550099625)) (.node (.leaf 11233360341525234580) (.leaf 7557057426765437710)))) (.node (.node (.node (.leaf 10445440780839612822) (.leaf 17043953147124966360)) (.node (.leaf 12796985919470577590) (.leaf 5604719132688114155))) (.node (.node (.leaf 17780077741932181356) (.leaf 274942235384779998)) (.node (.leaf 4910298245148514491) (.leaf 13650367730006670695)))))) (.node (.node (.node (.node (.node (.leaf 14346401113075873521) (.leaf 426508342344918718)) (.node (.leaf 8574390030480557332) (.leaf 6866876983230529064))) (.node (.node (.leaf 7765772859456563751) (.leaf 8582326137497068792)) (.node (.leaf 14549366554768062565) (.leaf 11856986801476333367)))) (.node (.node (.node (.leaf 8898731066756821135) (.leaf 13362704212487636277)) (.node (.leaf 7276073600140883274) (.leaf 1240382589476701390))) (.node (.node (.leaf 6222781224945624248) (.leaf 14217743425661922399)) (.node (.leaf 10539508597862775376) (.leaf 10486631055661621567))))) (.node (.node (.node (.node (.leaf 9504191419073951515) (.leaf 12691624280772729758)) (.node (.leaf 2493050800159790891) (.leaf 1932432033363211969))) (.node (.node (.leaf 14171228040693223400) (.leaf 13782226540418313993)) (.node (.leaf 938193329050786323) (.leaf 12198282691218207520)))) (.node (.node (.node (.leaf 18145826811354151560) (.leaf 12049405672799908040)) (.node (.leaf 13446150860118612299) (.leaf 13503295744316134013))) (.node (.node (.leaf 4194492859892556471) (.leaf 17215249334811138455)) (.node (.leaf 9614178858354446818) (.leaf 2984495315478634547)))))))))
noncomputable def g4 : G := ⟨g4_0, g4_1, g4_2, g4_3, ⟨11460669029954149468, 13577035328782995340, 10251602640065205749⟩⟩

noncomputable def g5_0 : Tree := (.node (.node (.node (.node (.node (.node (.node (.node (.leaf 202702819680127283) (.leaf 2934722448534276870)) (.node (.leaf 16704706776681314573) (.leaf 6559932634223499515))) (.node (.node (.leaf 7659210286936654658) (.leaf 3658739053077287891)) (.node (.leaf 6976390960888982926) (.leaf 754195143682703159)))) (.node (.node (.node (.leaf 11008899112012659692) (.leaf 5551720923205646980)) (.node (.leaf 9088584286797494132) (.leaf 12941282404627456043))) (.node (.node (.leaf 11584834888062221376) (.leaf 14916718309635250693)) (.node (.leaf 15006785520113814751) (.leaf 15299231242112726730))))) (.node (.node (.node (.node (.leaf 17302538387592274011) (.leaf 18143455414117713355)) (.node (.leaf 1068770358311018908) (.leaf 17632959166235812816))) (.node (.node (.leaf 13040097762868702020) (.leaf 5943233879607105450)) (.node (.leaf 11097195092880746743) (.leaf 13298357972370309)))) (.node (.node (.node (.leaf 8482755810130978177) (.leaf 8839436253285267468)) (.node (.leaf 12008503951512280622) (.leaf 15231417475775040945))) (.node (.node (.leaf 7072163075939128605) (.leaf 349261384168467802)) (.node (.leaf 7942863105530680877) (.leaf 17229646361011329601)))))) (.node (.node (.node (.node (.node (.leaf 15821381208243236218) (.leaf 8916848678414839869)) (.node (.leaf 17959128927860215628) (.leaf 10645928356801597963))) (.node (.node (.leaf 1346482081862447950) (.leaf 12485654287366665007)) (.node (.leaf 2198396454013874003) (.leaf 18442469763729495389)))) (.node (.node (.node (.leaf 8351612787756122382) (.leaf 10396963901795396712)) (.node (.leaf 15065541629246756291) (.leaf 9449821077009366699))) (.node (.node (.leaf 13103121145752575928) (.leaf 8681145338079753147)) (.node (.leaf 8605785661477097138) (.leaf 1513131056265173747))))) (.node (.node (.node (.node (.leaf 3220612127459850875) (.leaf 4876397901903769788)) (.node (.leaf 5031884312784159550) (.leaf 2605490854463774986))) (.node (.node (.leaf 16171033376152715803) (.leaf 5278414880510290608)) (.node (.leaf 10761188616791049956) (.leaf 15626978131511424402)))) (.node (.node (.node (.leaf 9862285862445949934) (.leaf 1529059112471833815)) (.node (.leaf 16035127517793813925) (.leaf 11831553970201128572))) (.node (.node (.leaf 13858465566417907792) (.leaf 10572679747919749639)) (.node (.leaf 5511626436469301248) (.leaf 16892820647936399362))))))) (.node (.node (.node (.node (.node (.node (.leaf 9191782733561219271) (.leaf 6115895316657938745)) (.node (.leaf 18173584586359946821) (.leaf 4621372517964206360))) (.node (.node (.leaf 2546372439145426538) (.leaf 1899647635684396310)) (.node (.leaf 10203926073396717333) (.leaf 6271848373156148684)))) (.node (.node (.node (.leaf 17911829902826350345) (.leaf 7218129269403861416)) (.node (.leaf 16407579430935001966) (.leaf 12246986803959345756))) (.node (.node (.leaf 13764017802380394232) (.leaf 623563354831360791)) (.node (.leaf 10672234568008828924) (.leaf 5865191692701042814))))) (.node (.node (.node (.node (.leaf 263965337277347107) (.leaf 8368603752933451444)) (.node (.leaf 3258813487091320478) (.leaf 2095880339038064866))) (.node (.node (.leaf 7886540538636144483) (.leaf 16582366231205270677)) (.node (.leaf 3498162813070905698) (.leaf 4128825946520473894)))) (.node (.node (.node (.leaf 131182840609744967) (.leaf 18252299504078532675)) (.node (.leaf 876778134575909568) (.leaf 15885909310040393178))) (.node (.node (.leaf 10245398174664541109) (.leaf 3585434831292582251)) (.node (.leaf 9732619540757843937) (.leaf 16321388465550204858)))))) (.node (.node (.node (.node (.node (.leaf 12750573369621052202) (.leaf 10502417829564781361)) (.node (.leaf 8004236234694253734) (.leaf 10350195896499607714))) (.node (.node (.leaf 858820254079035255) (.leaf 6876484985239643844)) (.node (.leaf 2764619581231956261) (.leaf 6142647156306846223)))) (.node (.node (.node (.leaf 5721550486522232440) (.leaf 17787870725570589490)) (.node (.leaf 1213248086983898276) (.leaf 1108710328485293827))) (.node (.node (.leaf 12163754197671207577) (.leaf 1384352054299033714)) (.node (.leaf 11434822263475189523) (.leaf 14395864062823588858))))) (.node (.node (.node (.node (.leaf 9592596292443918984) (.leaf 13254901230710221529)) (.node (.leaf 15440170277513356409) (.leaf 7451961750967555311))) (.node (.node (.leaf 11508822150737743572) (.leaf 13474874849808218213)) (.node (.leaf 11244899160926131593) (.leaf 4006632500124665398)))) (.node (.node (.node (.leaf 14763952677293484451) (.leaf 7565567704238462688)) (.node (.leaf 9267977779588907042) (.leaf 9412732154820443059))) (.node (.node (.leaf 11929489301496898960) (.leaf 13913069630194631414)) (.node (.leaf 13463866892767605233) (.leaf 14801284464698213517)))))))) (.node (.node (.node (.node (.node (.node (.node (.leaf 4485950859945545328) (.leaf 13743621050920639762)) (.node (.leaf 12432692721170395878) (.leaf 12377182762688202621))) (.node (.node (.leaf 5128775788586027651) (.leaf 508703443942299211)) (.node (.leaf 13996151109687176730) (.leaf 18016735231201229034)))) (.node (.node (.node (.leaf 16564893853959182290) (.leaf 2507594141619090031)) (.node (.leaf 10069094495990341293) (.leaf 1868423257115436577))) (.node (.node (.leaf 2955601241658084136) (.leaf 14639427703967510345)) (.node (.leaf 4601097040267117253) (.leaf 4215092136082675662))))) (.node (.node (.node (.node (.leaf 10159376595674384256) (.leaf 1769199848618580963)) (.node (.leaf 3097352434192830161) (.leaf 8071906302518753654))) (.node (.node (.leaf 16474519104805849337) (.leaf 3725233883395253910)) (.node (.leaf 13327647184386050649) (.leaf 7385998186847014991)))) (.node (.node (.node (.leaf 12832963066880713800) (.leaf 12044584619779335188)) (.node (.leaf 15555762770704027096) (.leaf 11206392233318886045))) (.node (.node (.leaf 14606698503922181990) (.leaf 9950888654592701468)) (.node (.leaf 17439756497024770196) (.leaf 9710147948417440053)))))) (.node (.node (.node (.node (.node (.leaf 16088955747266538879) (.leaf 6364814642710382811)) (.node (.leaf 9534319886156078018) (.leaf 7794680757108117581))) (.node (.node (.leaf 497045162409540961) (.leaf 17547851211302606558)) (.node (.leaf 11072871162284652887) (.leaf 9903693999288137377)))) (.node (.node (.node (.leaf 4726839135112078424) (.leaf 6216277274897606998)) (.node (.leaf 5366186076408766008) (.leaf 5072358069329722733))) (.node (.node (.leaf 2694095182180526488) (.leaf 8722368292252765331)) (.node (.leaf 6658154919658911007) (.leaf 16938787281728859184))))) (.node (.node (.node (.node (.leaf 943921893648447989) (.leaf 14891371519098956698)) (.node (.leaf 17832894351288290668) (.leaf 13119177551893631306))) (.node (.node (.leaf 14434880669246315579) (.leaf 3876904177671153149)) (.node (.leaf 4385602981290079840) (.leaf 12771519933974883548)))) (.node (.node (.node (.leaf 8976028702480728194) (.leaf 3380719418832863926)) (.node (.leaf 3457131947921471721) (.leaf 16763633140302418517))) (.node (.node (.leaf 9042235643737113971) (.leaf 3761698472489876971)) (.node (.leaf 14525912920005465248) (.leaf 4964023820998826738))))))) (.node (.node (.node (.node (.node (.node (.leaf 5406352825970324161) (.leaf 6524257241620276073)) (.node (.leaf 7056096608986488807) (.leaf 2336328568908832094))) (.node (.node (.leaf 718633350690839328) (.leaf 17678297084848910064)) (.node (.leaf 1631850206939382055) (.leaf 2445415357953730774)))) (.node (.node (.node (.leaf 15738263650112983103) (.leaf 15966635238008650391)) (.node (.leaf 17113128453860192607) (.leaf 7743197345887130313))) (.node (.node (.leaf 6764245390620794654) (.leaf 14077124426468963466)) (.node (.leaf 4461075385961494493) (.leaf 13374645527707846333))))) (.node (.node (.node (.node (.leaf 8183656301573729198) (.leaf 1274023866128108204)) (.node (.leaf 15361943125063236255) (.leaf 10922893757089430820))) (.node (.node (.leaf 3916273494585623743) (.leaf 13550995663552484507)) (.node (.leaf 7182433635338026065) (.leaf 10826258638744706511)))) (.node (.node (.node (.leaf 3141127312204738951) (.leaf 11621773335335714955)) (.node (.leaf 9340219831815797842) (.leaf 1996981102838425703))) (.node (.node (.leaf 2273392247849158404) (.leaf 413934354732526061)) (.node (.leaf 16816858904368407183) (.leaf 15158887375188561009)))))) (.node (.node (.node (.node (.node (.leaf 16235052287942564279) (.leaf 6810539844393470737)) (.node (.leaf 12625742383469305599) (.leaf 8547246071113149062))) (.node (.node (.leaf 5634919707408485325) (.leaf 2084871472431365988)) (.node (.leaf 1689901645209632582) (.leaf 14191339585947560762)))) (.node (.node (.node (.leaf 14233489208716809127) (.leaf 4061845525605341669)) (.node (.leaf 5789589177267605308) (.leaf 18373470293368064500))) (.node (.node (.leaf 12271035893689863381) (.leaf 5199370093925178640)) (.node (.leaf 2835584019718610152) (.leaf 11680896539130364936))))) (.node (.node (.node (.node (.leaf 17388147803129788044) (.leaf 6037382768389569580)) (.node (.leaf 7336115161254254644) (.leaf 14286340450117197000))) (.node (.node (.leaf 15668569527508502809) (.leaf 11321297652045735366)) (.node (.leaf 4316995698143271209) (.leaf 17182597707452290900)))) (.node (.node (.node (.leaf 11791146859858620673) (.leaf 8284533262845762479)) (.node (.leaf 17042978177427628478) (.leaf 12603205142605887401))) (.node (.node (.leaf 4769718343952068497) (.leaf 13687785546165892213)) (.node (.leaf 6468289065091317689) (.leaf 7623242143854036222)))))))))
noncomputable def g5_1 : Tree := (.node (.node (.node (.node (.node (.node (.node (.node (.leaf 10794606827797629663) (.leaf 3420660494724089705)) (.node (.leaf 14434204987621566978) (.leaf 2702362950343143193))) (.node (.node (.leaf 9121316803237456061) (.leaf 12793175478413037676)) (.node (.leaf 9006165834057073578) (.leaf 709735363669827016)))) (.node (.node (.node (.leaf 5918368192395452781) (.leaf 4575479316621241127)) (.node (.leaf 4280933700451264350) (.leaf 13030505426561227787))) (.node (.node (.leaf 15951245174810739566) (.leaf 1594571260918185750)) (.node (.leaf 627200825963354691) (.leaf 13479279785513187642))))) (.node (.node (.node (.node (.leaf 12118253701268352288) (.leaf 1128510768481908926)) (.node (.leaf 10296606109188815668) (.leaf 4807014168143209788))) (.node (.node (.leaf 2925921247295792201) (.leaf 11003056211875515363)) (.node (.leaf 16107491081890248665) (.leaf 3098687922416575110)))) (.node (.node (.node (.leaf 434752538687011612) (.leaf 14659021381670270300)) (.node (.leaf 16255778667045937524) (.leaf 6181525340191678609))) (.node (.node (.leaf 12090736686610063174) (.leaf 6879657457737686289)) (.node (.leaf 1847005420831239239) (.leaf 2057256416600618675)))))) (.node (.node (.node (.node (.node (.leaf 12935448795934210728) (.leaf 8859845698013576188)) (.node (.leaf 17129720545638558245) (.leaf 18066033092642733679))) (.node (.node (.leaf 16018223294032006493) (.leaf 15093515491719336058)) (.node (.leaf 17167940217040301231) (.leaf 6537698933170949324)))) (.node (.node (.node (.leaf 851950482896421370) (.leaf 10018986962285834869)) (.node (.leaf 966753926756629984) (.leaf 10407918495253065685))) (.node (.node (.leaf 13625666032518823767) (.leaf 16372320692042023554)) (.node (.leaf 2813376744208095607) (.leaf 7805155607791204370))))) (.node (.node (.node (.node (.leaf 4678479764094967517) (.leaf 16508296997944311114)) (.node (.leaf 1937060204663066404) (.leaf 2361608543871479374))) (.node (.node (.leaf 17925987367810965600) (.leaf 14896965205857747142)) (.node (.leaf 10149111015932222033) (.leaf 6385246598095277157)))) (.node (.node (.node (.leaf 13375330040355440041) (.leaf 3924098960940723620)) (.node (.leaf 6328791628038797963) (.leaf 7750451399404553560))) (.node (.node (.leaf 10939023651061095574) (.leaf 8751342193828807858)) (.node (.leaf 12888084855262423427) (.leaf 14839984592561856259))))))) (.node (.node (.node (.node (.node (.node (.leaf 3085471338913556931) (.leaf 13077733025167126970)) (.node (.leaf 8000338074716688163) (.leaf 7588019261663122280))) (.node (.node (.leaf 1376662373363735019) (.leaf 8370880836802609334)) (.node (.leaf 11418760640996599311) (.leaf 14243244480398396715)))) (.node (.node (.node (.leaf 8497949545835281011) (.leaf 5832013505139862295)) (.node (.leaf 11314446627648224556) (.leaf 17716465130807891972))) (.node (.node (.leaf 3545108956907867784) (.leaf 3672143329862102505)) (.node (.leaf 16499444007493474296) (.leaf 11086879047195282023))))) (.node (.node (.node (.node (.leaf 15366873017850075897) (.leaf 5342713882311696024)) (.node (.leaf 5877635142419922479) (.leaf 13887295274758689917))) (.node (.node (.leaf 17396947783892935608) (.leaf 274028792512978156)) (.node (.leaf 17338640452144127300) (.leaf 17483666421187490004)))) (.node (.node (.node (.leaf 15434875413390553465) (.leaf 2588200943179703481)) (.node (.leaf 12451239330366665114) (.leaf 1216720422271821368))) (.node (.node (.leaf 9383772138789680764) (.leaf 2166033335296676699)) (.node (.leaf 10207194428920605150) (.leaf 17564293975248291882)))))) (.node (.node (.node (.node (.node (.leaf 18230998806863588442) (.leaf 11287151345248113301)) (.node (.leaf 2401080351367566797) (.leaf 7662419283341188078))) (.node (.node (.leaf 11157548260634810288) (.leaf 15750780004357549864)) (.node (.leaf 6699764992991380514) (.leaf 13429000166997238991)))) (.node (.node (.node (.leaf 8284602674286699216) (.leaf 7226710069867161663)) (.node (.leaf 13616511672229987392) (.leaf 9522541753336694614))) (.node (.node (.leaf 13302291007803806064) (.leaf 4136513007244810581)) (.node (.leaf 2114170122139366145) (.leaf 11873641184402593703))))) (.node (.node (.node (.node (.leaf 7112233131674953026) (.leaf 14079536834781521636)) (.node (.leaf 4351595495131585995) (.leaf 16177645032744789809))) (.node (.node (.leaf 9321194805434413218) (.leaf 9742720196157542304)) (.node (.leaf 17993792122898060883) (.leaf 15673965641384981730)))) (.node (.node (.node (.leaf 10489672169853321870) (.leaf 16288407231772067312)) (.node (.leaf 7458460026227653739) (.leaf 16827405543866931602))) (.node (.node (.leaf 1315975591446823432) (.leaf 3702528803186195579)) (.node (.leaf 1957024984822429509) (.leaf 8691274792658688644)))))))) (.node (.node (.node (.node (.node (.node (.node (.leaf 7353884357651320985) (.leaf 12622051196040988582)) (.node (.leaf 9702701222255311681) (.leaf 15889960558027478091))) (.node (.node (.leaf 13124644599403560713) (.leaf 5066380161110348465)) (.node (.leaf 3815066395666039102) (.leaf 1566971654472391436)))) (.node (.node (.node (.leaf 15311299604785008628) (.leaf 5202836172337374213)) (.node (.leaf 13221012090410437646) (.leaf 11505459109959493548))) (.node (.node (.leaf 10651245181025305587) (.leaf 18109877472638130294)) (.node (.leaf 171277960457541147) (.leaf 100890571089385412))))) (.node (.node (.node (.node (.leaf 3305209724019721759) (.leaf 5535883412975218378)) (.node (.leaf 2482203802091651491) (.leaf 3861730403712316647))) (.node (.node (.leaf 877654244460502061) (.leaf 2755190790834581409)) (.node (.leaf 7565293616240378271) (.leaf 4068079956661496038)))) (.node (.node (.node (.leaf 10559722621466787583) (.leaf 16579030875957565007)) (.node (.leaf 14708029710184043833) (.leaf 9813281046608860529))) (.node (.node (.leaf 4027105822390127515) (.leaf 55250830401537165)) (.node (.leaf 6232663192897131483) (.leaf 14501137562155318272)))))) (.node (.node (.node (.node (.node (.leaf 5302090258992812764) (.leaf 331320414725963108)) (.node (.leaf 8868356765884485987) (.leaf 3508065101375047925))) (.node (.node (.leaf 15197924860701050657) (.leaf 1244411017107146451)) (.node (.leaf 8595320844179105929) (.leaf 1032818629845200621)))) (.node (.node (.node (.leaf 9171019460516809194) (.leaf 11666501363703456596)) (.node (.leaf 15812521079184131057) (.leaf 16686903073947824178))) (.node (.node (.leaf 8357471855061391518) (.leaf 4900666507957373914)) (.node (.leaf 6571084470806814612) (.leaf 1722648851464842951))))) (.node (.node (.node (.node (.leaf 9609095039537202698) (.leaf 9874483383994681653)) (.node (.leaf 12468097050970847717) (.leaf 4993093990217717094))) (.node (.node (.leaf 15614207823535596469) (.leaf 16891940135413350642)) (.node (.leaf 1756734580590755978) (.leaf 15532242102228748935)))) (.node (.node (.node (.leaf 10686253009608618542) (.leaf 5450415156858048013)) (.node (.leaf 14150306279383768830) (.leaf 14933894017698276027))) (.node (.node (.leaf 11958545163624490368) (.leaf 14355182335476611379)) (.node (.leaf 8075979086308401784) (.leaf 17071524190975932002))))))) (.node (.node (.node (.node (.node (.node (.leaf 9998827113921546781) (.leaf 12732171676238179022)) (.node (.leaf 2268533561985972244) (.leaf 17844926584095487478))) (.node (.node (.leaf 13704715292250005419) (.leaf 11699320027968176695)) (.node (.leaf 6073038168076240234) (.leaf 16937446308546063022)))) (.node (.node (.node (.leaf 18367494345876642748) (.leaf 12595460552134021912)) (.node (.leaf 1489837869826091865) (.leaf 18175396888542857664))) (.node (.node (.leaf 7294192350269300243) (.leaf 7998165511770272272)) (.node (.leaf 6048615753124640744) (.leaf 9484652743463896690))))) (.node (.node (.node (.node (.leaf 4843765012709670782) (.leaf 10342622219494323365)) (.node (.leaf 12240523681590179866) (.leaf 7042493585987995805))) (.node (.node (.leaf 5579139538290668294) (.leaf 18404836866781559061)) (.node (.leaf 11799958620973822199) (.leaf 4424030263598808583)))) (.node (.node (.node (.leaf 13771766718155770309) (.leaf 17773486400773180457)) (.node (.leaf 5749120063057845243) (.leaf 372966805000777169))) (.node (.node (.leaf 14040731584442119206) (.leaf 11222316317386662103)) (.node (.leaf 12388485909809537423) (.leaf 3022832966124921672)))))) (.node (.node (.node (.node (.node (.leaf 4527951522547296703) (.leaf 2665797202468582338)) (.node (.leaf 15005157873923879341) (.leaf 3319626008957129087))) (.node (.node (.leaf 8167793020379925808) (.leaf 12314327908193389975)) (.node (.leaf 8543372609070713661) (.leaf 13945230232950946972)))) (.node (.node (.node (.leaf 6919028354928121951) (.leaf 10819635394866853300)) (.node (.leaf 17592077955462698167) (.leaf 7187282118315103824))) (.node (.node (.leaf 11553005621791952517) (.leaf 17230885158952129750)) (.node (.leaf 16735805425078496076) (.leaf 5626581369180081746))))) (.node (.node (.node (.node (.leaf 9019002532174285010) (.leaf 750200599022630221)) (.node (.leaf 15205175027014726291) (.leaf 6707667480452359521))) (.node (.node (.leaf 3191317068928579201) (.leaf 5124065932789211617)) (.node (.leaf 523674856017439945) (.leaf 9272466060448210998)))) (.node (.node (.node (.leaf 4732693234729674270) (.leaf 6453338187388892157)) (.node (.leaf 6836540822720445167) (.leaf 14564258221041526672))) (.node (.node (.leaf 11986419578326667835) (.leaf 4234368139531473345)) (.node (.leaf 14275200805893017740) (.leaf 7860926367435913176)))))))))
noncomputable def g5_2 : Tree := (.node (.node (.node (.node (.node (.node (.node (.node (.leaf 1578773588665538290) (.leaf 17151516927406263865)) (.node (.leaf 7137367180788567780) (.leaf 8155454315979244332))) (.node (.node (.leaf 10329234411881643601) (.leaf 14594829506183038457)) (.node (.leaf 16594833049992725951) (.leaf 8329228837497960062)))) (.node (.node (.node (.leaf 5814131369657638684) (.leaf 7898984284965267556)) (.node (.leaf 6940276583769490222) (.leaf 5356799970937250301))) (.node (.node (.leaf 1941731433831401934) (.leaf 16502539488965377144)) (.node (.leaf 11599192741502095725) (.leaf 10034002900096649849))))) (.node (.node (.node (.node (.leaf 8238447247913808323) (.leaf 10677993079557641765)) (.node (.leaf 3051575011012580612) (.leaf 642133900423393618))) (.node (.node (.leaf 3195970482266459984) (.leaf 14254486068054080994)) (.node (.leaf 2384044397726771721) (.leaf 1108831296221906960)))) (.node (.node (.node (.leaf 6749688935502267745) (.leaf 2058284547899698280)) (.node (.leaf 5467299012009703943) (.leaf 17930484280271090754))) (.node (.node (.leaf 386483566843882910) (.leaf 7308077382729262391)) (.node (.leaf 9476467416032944462) (.leaf 12715831030983321146)))))) (.node (.node (.node (.node (.node (.leaf 5903673172419586539) (.leaf 11288968184962893751)) (.node (.leaf 14122684912947014986) (.leaf 6111384022404603314))) (.node (.node (.leaf 4866326695586827741) (.leaf 16375829345675895647)) (.node (.leaf 14495552347086783335) (.leaf 4249966002208358413)))) (.node (.node (.node (.leaf 349038153450503287) (.leaf 18334898415887684208)) (.node (.leaf 4528109010142238393) (.leaf 4278625599423743834))) (.node (.node (.leaf 1165092632218641798) (.leaf 11620464774109843637)) (.node (.leaf 17252742060062202314) (.leaf 5996554819855848615))))) (.node (.node (.node (.node (.leaf 4626651503905809450) (.leaf 16118898987288551700)) (.node (.leaf 6424044938733906304) (.leaf 540990918978771633))) (.node (.node (.leaf 8091110369354949656) (.leaf 16049812493009911398)) (.node (.leaf 5667927917382527603) (.leaf 15761122276976849751)))) (.node (.node (.node (.leaf 868014074981253882) (.leaf 3109623556846038714)) (.node (.leaf 14347988946818090392) (.leaf 8925160264354629755))) (.node (.node (.leaf 7235123139423007778) (.leaf 15637120041374965812)) (.node (.leaf 17140256929924100640) (.leaf 9655178027237947557))))))) (.node (.node (.node (.node (.node (.node (.leaf 12588376185141714717) (.leaf 13695728101338238870)) (.node (.leaf 452357899665820509) (.leaf 10996121106004153551))) (.node (.node (.leaf 16843717407323337720) (.leaf 14144263608411920548)) (.node (.leaf 11202814777847052506) (.leaf 15216795887877606275)))) (.node (.node (.node (.leaf 941219868915521517) (.leaf 4765842890003866718)) (.node (.leaf 2473992098750985758) (.leaf 11700339060744524635))) (.node (.node (.leaf 3578395682194261179) (.leaf 2964127690998430216)) (.node (.leaf 6619016017000086351) (.leaf 8975314810356361494))))) (.node (.node (.node (.node (.leaf 9387127270109675505) (.leaf 16276781606240691136)) (.node (.leaf 14965714518442104126) (.leaf 13349222989191741330))) (.node (.node (.leaf 2299881762327058237) (.leaf 4137942748853868970)) (.node (.leaf 11802642629816976519) (.leaf 3980780589491543429)))) (.node (.node (.node (.leaf 11076926500599655540) (.leaf 5025713758463813035)) (.node (.leaf 8471068730279104283) (.leaf 9036946368084870794))) (.node (.node (.leaf 15984162371284533588) (.leaf 5562645139767834881)) (.node (.leaf 13229757546032286873) (.leaf 2613002264351916636)))))) (.node (.node (.node (.node (.node (.leaf 17705871343799990115) (.leaf 10935894787199139473)) (.node (.leaf 17202894992909185) (.leaf 17970585611446560553))) (.node (.node (.leaf 10801082272587040309) (.leaf 159354506268736980)) (.node (.leaf 17043305295947758581) (.leaf 16683526958564581536)))) (.node (.node (.node (.leaf 10842919320042457384) (.leaf 5978064401818546284)) (.node (.leaf 14656390808515284396) (.leaf 17614137896031492448))) (.node (.node (.leaf 7659297290931598611) (.leaf 3484720184582168082)) (.node (.leaf 6779051493333363456) (.leaf 15551148688625088015))))) (.node (.node (.node (.node (.leaf 2554911912518184773) (.leaf 8740720602665866686)) (.node (.leaf 1729655942326824855) (.leaf 15335304771278305485))) (.node (.node (.leaf 3921064698677367224) (.leaf 9241432300455725046)) (.node (.leaf 7131795008984767375) (.leaf 12914880472102148108)))) (.node (.node (.node (.leaf 6906895228569741116) (.leaf 16756321825963467771)) (.node (.leaf 3842571131244954060) (.leaf 3408747672710140995))) (.node (.node (.leaf 15477399139194370666) (.leaf 11885868672879320849)) (.node (.leaf 2002018447479092705) (.leaf 9118750875712662445)))))))) (.node (.node (.node (.node (.node (.node (.node (.leaf 1588816186449534577) (.leaf 9663092353768615159)) (.node (.leaf 13934847146952330379) (.leaf 10551781457800476489))) (.node (.node (.leaf 9920666279106601182) (.leaf 1664175925948831792)) (.node (.leaf 14781338447830876840) (.leaf 11466355601883290577)))) (.node (.node (.node (.leaf 15068906618401087880) (.leaf 10261064709201599509)) (.node (.leaf 1477258324546496378) (.leaf 2787201243564447156))) (.node (.node (.leaf 8804941113520178719) (.leaf 13538045888754452876)) (.node (.leaf 12285330782586153961) (.leaf 13879507577081977966))))) (.node (.node (.node (.node (.leaf 8404969956491574768) (.leaf 18415553366253133067)) (.node (.leaf 15854713103798307845) (.leaf 9553037166142619992))) (.node (.node (.leaf 7596834586801550854) (.leaf 15020508346748261401)) (.node (.leaf 10175031867836828322) (.leaf 9321307515410008625)))) (.node (.node (.node (.leaf 9761165362748903081) (.leaf 13820905408141167603)) (.node (.leaf 12825325341302182183) (.leaf 10600660778956095705))) (.node (.node (.leaf 14450310733613388542) (.leaf 7378960705658926891)) (.node (.leaf 3248106170157247629) (.leaf 12174804331062131515)))))) (.node (.node (.node (.node (.node (.leaf 4595533572061523389) (.leaf 16971363847523538903)) (.node (.leaf 6640841767061659263) (.leaf 5117172768162228390))) (.node (.node (.leaf 11116787805511283570) (.leaf 7980845743169215829)) (.node (.leaf 14859396136563210965) (.leaf 4048421018146526053)))) (.node (.node (.node (.leaf 13005506522077916103) (.leaf 5095408816324069358)) (.node (.leaf 141615589328064051) (.leaf 8649606777934491960))) (.node (.node (.leaf 1866594407634565474) (.leaf 15813738848732836470)) (.node (.leaf 12004527405783265325) (.leaf 6407374343743904840))))) (.node (.node (.node (.node (.leaf 13097351594391060694) (.leaf 3648452557193253762)) (.node (.leaf 5236738305889475510) (.leaf 16476163073920152644))) (.node (.node (.leaf 7724732186125208425) (.leaf 7552191216636924114)) (.node (.leaf 12611553171243274909) (.leaf 726806822194657500)))) (.node (.node (.node (.leaf 8619766287475876513) (.leaf 14752538202629189884)) (.node (.leaf 9802732157613043935) (.leaf 3365454809842699597))) (.node (.node (.leaf 17316722875196038355) (.leaf 704782112056917658)) (.node (.leaf 17508782716690384922) (.leaf 11363491347822066003))))))) (.node (.node (.node (.node (.node (.node (.leaf 7046327367221355951) (.leaf 12245042845684476196)) (.node (.leaf 13626016757044891849) (.leaf 15601708838719220294))) (.node (.node (.leaf 13322763212256627788) (.leaf 8567045299945429226)) (.node (.leaf 12075404193026764518) (.leaf 9978595960849127019)))) (.node (.node (.node (.leaf 2135672119398707506) (.leaf 17571213563496346500)) (.node (.leaf 16924990803013510798) (.leaf 6204682837990770211))) (.node (.node (.leaf 4323750889318349212) (.leaf 17412606183602175983)) (.node (.leaf 17781711617210574510) (.leaf 17864840433902867202))))) (.node (.node (.node (.node (.leaf 11900886042080417760) (.leaf 18298604294541406145)) (.node (.leaf 5270613141075882644) (.leaf 15172025209141318388))) (.node (.node (.leaf 6539156947897613679) (.leaf 2332365659958867939)) (.node (.leaf 9171848787374328280) (.leaf 13158566333053690544)))) (.node (.node (.node (.leaf 1050085992103755667) (.leaf 6130107105584998594)) (.node (.leaf 3781342182792119195) (.leaf 5484312614249447817))) (.node (.node (.leaf 7457242630754275137) (.leaf 13607083440493985916)) (.node (.leaf 273829576611939014) (.leaf 14025821884227445251)))))) (.node (.node (.node (.node (.node (.leaf 2682862377792563061) (.leaf 10155705890145301568)) (.node (.leaf 15416963716897537212) (.leaf 2924394142976716079))) (.node (.node (.leaf 12482913766527257296) (.leaf 1270223585744660197)) (.node (.leaf 18097011519404069352) (.leaf 2228524061790084043)))) (.node (.node (.node (.leaf 16183133081582842422) (.leaf 12898229385224464417)) (.node (.leaf 12439517491193420484) (.leaf 14283482707880097221))) (.node (.node (.leaf 4711153801781062288) (.leaf 8000824546019414216)) (.node (.leaf 6273558414639126963) (.leaf 2847026786293701209))))) (.node (.node (.node (.node (.leaf 18182884249697070755) (.leaf 3726020009262106687)) (.node (.leaf 12328542652519212191) (.leaf 7804622040701748443))) (.node (.node (.leaf 806200267290435303) (.leaf 4935740228993478219)) (.node (.leaf 5696625667771157798) (.leaf 18037571622552707308)))) (.node (.node (.node (.leaf 1421040757429590614) (.leaf 10419968440969950478)) (.node (.leaf 11447375076442480407) (.leaf 10479898597102109845))) (.node (.node (.leaf 1361875454760565514) (.leaf 13462460218060284541)) (.node (.leaf 4450326141683629311) (.leaf 16338219637909106503)))))))))
noncomputable def g5_3 : Tree := (.node (.node (.node (.node (.node (.node (.node (.node (.leaf 14535116554108250219) (.leaf 12626501585373630081)) (.node (.leaf 12861930668390524133) (.leaf 9579810033006027453))) (.node (.node (.leaf 16801707119491439924) (.leaf 11035575517934020114)) (.node (.leaf 7874585531451202231) (.leaf 2624886360445635191)))) (.node (.node (.node (.leaf 3219416062385315625) (.leaf 5690225084589524208)) (.node (.leaf 12977559843294478685) (.leaf 11015461795555099622))) (.node (.node (.leaf 15943803754831013717) (.leaf 9134961672101167355)) (.node (.leaf 8621418353694567800) (.leaf 135427062022806874))))) (.node (.node (.node (.node (.leaf 3620490260029866029) (.leaf 6046533568500180316)) (.node (.leaf 5940624627526156512) (.leaf 9895237111502460331))) (.node (.node (.leaf 8803088934845776953) (.leaf 2388937749089128405)) (.node (.leaf 964043029555179361) (.leaf 10162217977579359560)))) (.node (.node (.node (.leaf 10402996209283865169) (.leaf 8097304000901725343)) (.node (.leaf 5256110295740468772) (.leaf 13552934558728458928))) (.node (.node (.leaf 11412753796026413418) (.leaf 1186003206014502649)) (.node (.leaf 16592933282890181901) (.leaf 6824125093758896295)))))) (.node (.node (.node (.node (.node (.leaf 1500205019320141309) (.leaf 1350996987755465330)) (.node (.leaf 15170283957521083381) (.leaf 17699428192688516150))) (.node (.node (.leaf 18049021365650252033) (.leaf 8371272470489363602)) (.node (.leaf 4243681217210211869) (.leaf 1758918565412696463)))) (.node (.node (.node (.leaf 5042479954205244971) (.leaf 6925942457531055107)) (.node (.leaf 14432776014219929363) (.leaf 1831104076235344792))) (.node (.node (.leaf 6237645522070017861) (.leaf 17740439399349705123)) (.node (.leaf 7281775879002583268) (.leaf 11122284669668638185))))) (.node (.node (.node (.node (.leaf 16162496452626517239) (.leaf 9348562154742314688)) (.node (.leaf 14068107821345141212) (.leaf 12449681903621366303))) (.node (.node (.leaf 13804889974910694276) (.leaf 3893585479247210677)) (.node (.leaf 7115121656137147212) (.leaf 9484767912359508528)))) (.node (.node (.node (.leaf 10548613262440615362) (.leaf 10358467354059107324)) (.node (.leaf 13141931279677672476) (.leaf 6715028753407630521))) (.node (.node (.leaf 7412139297660586957) (.leaf 9213304330657451055)) (.node (.leaf 4680276135904168415) (.leaf 13274715030687453695))))))) (.node (.node (.node (.node (.node (.node (.leaf 12549587048511472574) (.leaf 12373814009049316184)) (.node (.leaf 14653566311245524811) (.leaf 6175506424116705478))) (.node (.node (.leaf 4347051083423988085) (.leaf 16994319113715929297)) (.node (.leaf 17407079852593135207) (.leaf 11644964104846437017)))) (.node (.node (.node (.leaf 10738230413767489453) (.leaf 2785421234404326844)) (.node (.leaf 2952259319574476680) (.leaf 15877842405164678575))) (.node (.node (.leaf 7570579190647921706) (.leaf 9730784793810097390)) (.node (.leaf 7832298966198180056) (.leaf 779097275324046195))))) (.node (.node (.node (.node (.leaf 577422359715655857) (.leaf 4254031653485906262)) (.node (.leaf 1148274445532344314) (.leaf 3311764198440867393))) (.node (.node (.leaf 4714295682421886099) (.leaf 6687489215354473220)) (.node (.leaf 17806740876886552192) (.leaf 8030690900730924001)))) (.node (.node (.node (.leaf 4851679769993917960) (.leaf 16740327476261022147)) (.node (.leaf 15723813355944943508) (.leaf 9241245994843230078))) (.node (.node (.leaf 17513857957468752455) (.leaf 6462941352453302861)) (.node (.leaf 3371190799434373434) (.leaf 5354856977075173898)))))) (.node (.node (.node (.node (.node (.leaf 1622870506060623918) (.leaf 9047279192451950427)) (.node (.leaf 14595555520818355911) (.leaf 314418542185350949))) (.node (.node (.leaf 4924235162469568053) (.leaf 11205903377602128249)) (.node (.leaf 3164476374867830489) (.leaf 6290101997315895947)))) (.node (.node (.node (.leaf 8234605808639972175) (.leaf 922515795647044532)) (.node (.leaf 9957249195251040684) (.leaf 859314069788469661))) (.node (.node (.leaf 14786586024637252847) (.leaf 11377053611575589572)) (.node (.leaf 10134109369252771173) (.leaf 193199659942991860))))) (.node (.node (.node (.node (.leaf 7750650669185876298) (.leaf 14714322243822305890)) (.node (.leaf 8175094323084498085) (.leaf 12261104622337214106))) (.node (.node (.leaf 8319281118694153965) (.leaf 16889455805786557790)) (.node (.leaf 13655738318797653864) (.leaf 4470714086639974560)))) (.node (.node (.node (.leaf 7024878118397016625) (.leaf 10852166934700978891)) (.node (.leaf 15093887936870163712) (.leaf 11937190927250766189))) (.node (.node (.leaf 5310387041519213089) (.leaf 15498932251317134617)) (.node (.leaf 6907061627385697750) (.leaf 2217150163197986104)))))))) (.node (.node (.node (.node (.node (.node (.node (.leaf 12733330911772848389) (.leaf 3482862850072674939)) (.node (.leaf 2489352271107560848) (.leaf 1072421975565382306))) (.node (.node (.leaf 16125447095615519532) (.leaf 14012559097181711384)) (.node (.leaf 4760153796067857782) (.leaf 15696739456598048680)))) (.node (.node (.node (.leaf 4434326650504666565) (.leaf 695444551417700212)) (.node (.leaf 5410178314629994140) (.leaf 13062146764238770838))) (.node (.node (.leaf 17883246578345787778) (.leaf 10725653863112347891)) (.node (.leaf 18372765348731385151) (.leaf 12762229167268248504))))) (.node (.node (.node (.node (.leaf 13228183597297322000) (.leaf 11962779710490760817)) (.node (.leaf 3097668991723611902) (.leaf 18236798192404813964))) (.node (.node (.leaf 12940880280885487699) (.leaf 13917007769978852245)) (.node (.leaf 1384776569256267428) (.leaf 2845292698671817417)))) (.node (.node (.node (.leaf 11523887660637710688) (.leaf 18120170894530520012)) (.node (.leaf 10636421274831737200) (.leaf 18176653316521273172))) (.node (.node (.leaf 1659113280206761028) (.leaf 17650926980111936268)) (.node (.leaf 11680792726552976410) (.leaf 2060702257589753917)))))) (.node (.node (.node (.node (.node (.leaf 13762526279245681367) (.leaf 16483471461615408093)) (.node (.leaf 8502827584448436544) (.leaf 16375403651939933595))) (.node (.node (.leaf 3578755853110499177) (.leaf 3863799812848610995)) (.node (.leaf 13424537052288302778) (.leaf 17487431648762107772)))) (.node (.node (.node (.leaf 14231708014561983548) (.leaf 16501875339011205671)) (.node (.leaf 17209176953374701709) (.leaf 15463242947751354446))) (.node (.node (.leaf 8969371473267807084) (.leaf 2718225834075210242)) (.node (.leaf 17015959826403200443) (.leaf 6575947709807960390))))) (.node (.node (.node (.node (.leaf 5812106850451984511) (.leaf 9432721968928397539)) (.node (.leaf 15390466653535249387) (.leaf 11544311612102204657))) (.node (.node (.leaf 5593427189305388299) (.leaf 5101955432363097)) (.node (.leaf 17286746898961659826) (.leaf 463969682842199634)))) (.node (.node (.node (.leaf 7206088312336138186) (.leaf 5733620050200492479)) (.node (.leaf 3968601096194055045) (.leaf 8873574576090781391))) (.node (.node (.leaf 13356708050832113906) (.leaf 15271756942269557459)) (.node (.leaf 14903173446274790499) (.leaf 1537787164918869228))))))) (.node (.node (.node (.node (.node (.node (.leaf 18445529590731491334) (.leaf 6389340036004252135)) (.node (.leaf 2352014144793440080) (.leaf 1974448555615253526))) (.node (.node (.leaf 10889570700678642577) (.leaf 9608675434569781275)) (.node (.leaf 14161097579307635079) (.leaf 17112028827311097766)))) (.node (.node (.node (.leaf 7171036285559223575) (.leaf 5515470044964397350)) (.node (.leaf 3754605911310951158) (.leaf 12154361997273486467))) (.node (.node (.leaf 17951977327265539233) (.leaf 8492394538327741542)) (.node (.leaf 8704155993953562222) (.leaf 14284468244991522280))))) (.node (.node (.node (.node (.leaf 16064007049177575049) (.leaf 14991562524529487945)) (.node (.leaf 11270132824556141034) (.leaf 15621925274347631381))) (.node (.node (.leaf 9676433870511411044) (.leaf 6556177345736534185)) (.node (.leaf 10029988297707508194) (.leaf 7557057426756131598)))) (.node (.node (.node (.leaf 7650813267094405006) (.leaf 15818974046761378594)) (.node (.leaf 16275842823904090679) (.leaf 11801672221459825470))) (.node (.node (.leaf 3439093238652288783) (.leaf 274838879865702366)) (.node (.leaf 14411377661065988270) (.leaf 535886121911762287)))))) (.node (.node (.node (.node (.node (.leaf 2141178324501791761) (.leaf 426521534454380631)) (.node (.leaf 14975617032430019624) (.leaf 7474581457328078356))) (.node (.node (.leaf 16306975172744939220) (.leaf 4114192357192115448)) (.node (.leaf 4585232185489585955) (.leaf 11856936223941440438)))) (.node (.node (.node (.leaf 8783611402393351818) (.leaf 2288555039409767687)) (.node (.leaf 2558220298562854874) (.leaf 1254876751191795150))) (.node (.node (.leaf 5088467382510771779) (.leaf 3697334784389393759)) (.node (.leaf 16714768555078095570) (.leaf 7981504123714036102))))) (.node (.node (.node (.node (.leaf 15336345700792124978) (.leaf 5125472212664582814)) (.node (.leaf 10509426812388903632) (.leaf 1904565849026213569))) (.node (.node (.leaf 5866791672583553858) (.leaf 9819058868337582089)) (.node (.leaf 17311128557561883514) (.leaf 12234717208025002784)))) (.node (.node (.node (.leaf 12471025233479518683) (.leaf 12049406772311515336)) (.node (.leaf 10241317347257676347) (.leaf 13503295387839120765))) (.node (.node (.leaf 6088638494530960554) (.leaf 13900388902833920407)) (.node (.leaf 4077669207205170974) (.leaf 3007943500452585523)))))))))
noncomputable def g5 : G := ⟨g5_0, g5_1, g5_2, g5_3, ⟨11757415409561238684, 2691672260580526680, 7779272747326974648⟩⟩

noncomputable def g6_0 : Tree := (.node (.node (.node (.node (.node (.node (.node (.node (.leaf 164422222847523403) (.leaf 444276061261254856)) (.node (.leaf 15984130836315273485) (.leaf 9874238184281973281))) (.node (.node (.leaf 7659210192447374146) (.leaf 421816409471524220)) (.node (.leaf 6971887358486752758) (.leaf 951430232493846137)))) (.node (.node (.node (.leaf 11008899112012659692) (.leaf 8787818363547129796)) (.node (.leaf 2603400822796777332) (.leaf 7169478381672938396))) (.node (.node (.leaf 11584837087085477082) (.leaf 18261619016736065857)) (.node (.leaf 15050695616480021727) (.leaf 8379967969034337535))))) (.node (.node (.node (.node (.leaf 5845380256956899567) (.leaf 16600339528700404669)) (.node (.leaf 1017823387527307606) (.leaf 700173422936967974))) (.node (.node (.leaf 13040097762871978967) (.leaf 13866710532797996593)) (.node (.leaf 4035560772768472342) (.leaf 15209417908009606095)))) (.node (.node (.node (.leaf 8456578639144796469) (.leaf 12870360110942492381)) (.node (.leaf 12008503951512277766) (.leaf 3804585039737553387))) (.node (.node (.leaf 7072164175178819869) (.leaf 10562060038890519086)) (.node (.leaf 7989631932129761011) (.leaf 8903406689765862074)))))) (.node (.node (.node (.node (.node (.leaf 15826729485124430586) (.leaf 1838672105557920358)) (.node (.leaf 12500203229315607116) (.leaf 13194109988269664438))) (.node (.node (.leaf 7831665545267245902) (.leaf 10354058717207662903)) (.node (.leaf 6489481468945477459) (.leaf 4599737856385208945)))) (.node (.node (.node (.leaf 8326561514828892374) (.leaf 12766849059147775749)) (.node (.leaf 582002168636954051) (.leaf 8615447310952534245))) (.node (.node (.leaf 13103121145752548024) (.leaf 5197845962626051083)) (.node (.leaf 9490854428106690226) (.leaf 1626305228403187501))))) (.node (.node (.node (.node (.leaf 18368750549665272955) (.leaf 879022632421510644)) (.node (.leaf 5000640616146289470) (.leaf 9108658354992059522))) (.node (.node (.leaf 10622862393468874267) (.leaf 18203016884904618630)) (.node (.leaf 10749929619109365476) (.leaf 16808185796188913540)))) (.node (.node (.node (.leaf 9862285347049874414) (.leaf 10690894860177452868)) (.node (.leaf 6090417580377446053) (.leaf 7748800363274797747))) (.node (.node (.leaf 5932252293634093136) (.leaf 7439927236484172434)) (.node (.leaf 5523627604639486720) (.leaf 14280956521451837352))))))) (.node (.node (.node (.node (.node (.node (.leaf 9194748116421331143) (.leaf 16015776812915698077)) (.node (.leaf 14150181269978707781) (.leaf 10897385594825447967))) (.node (.node (.leaf 13643242496512377423) (.leaf 16072174610414843895)) (.node (.leaf 10203941466727266325) (.leaf 11310480775593426356)))) (.node (.node (.node (.leaf 11734317993267541001) (.leaf 15423164257486038430)) (.node (.leaf 16418996261448711022) (.leaf 1161711423123449352))) (.node (.node (.leaf 7567065462023474364) (.leaf 6160333980070058543)) (.node (.leaf 1520920125191981052) (.leaf 17331731235483632082))))) (.node (.node (.node (.node (.leaf 8262383564252600355) (.leaf 15751199804393991851)) (.node (.leaf 4163754880092003074) (.leaf 2908429613958689373))) (.node (.node (.leaf 7921443435748265883) (.leaf 14118900812398017031)) (.node (.leaf 3858389738487735138) (.leaf 3293217768213464214)))) (.node (.node (.node (.leaf 10435419591192324320) (.leaf 13578195046113281082)) (.node (.leaf 4839664333866332352) (.leaf 14046546422089225280))) (.node (.node (.leaf 1742439351743202229) (.leaf 14250694127503242444)) (.node (.leaf 9732619540757188577) (.leaf 13516920283770853498)))))) (.node (.node (.node (.node (.node (.leaf 12750573369621052202) (.leaf 9331507551803973680)) (.node (.leaf 8004236234711030950) (.leaf 17771324520533511897))) (.node (.node (.leaf 12099804941176711031) (.leaf 9005547096181555430)) (.node (.leaf 2753974109680723237) (.leaf 1225763487322387875)))) (.node (.node (.node (.leaf 5763208783075409426) (.leaf 17171123210486403941)) (.node (.leaf 6779697230675244196) (.leaf 11611645406871804627))) (.node (.node (.leaf 12163754201211200153) (.leaf 15148280761213261709)) (.node (.leaf 11434657336730997758) (.leaf 4691972537974583727))))) (.node (.node (.node (.node (.leaf 9595914620485631368) (.leaf 3362002211423352074)) (.node (.leaf 7225646338631414551) (.leaf 3670872366517724944))) (.node (.node (.leaf 11507977725807597780) (.leaf 15503621136916129428)) (.node (.leaf 6272925704885067145) (.leaf 15860614424394960048)))) (.node (.node (.node (.leaf 14763952676777107573) (.leaf 9985685124867032471)) (.node (.leaf 16880624652829605922) (.leaf 16529372300067694902))) (.node (.node (.leaf 11922452726325449469) (.leaf 4933144641987235723)) (.node (.leaf 13463866986669683185) (.leaf 6002687281950810105)))))))) (.node (.node (.node (.node (.node (.node (.node (.leaf 4494113253175692912) (.leaf 17400288746923209592)) (.node (.leaf 12442544345355268625) (.leaf 253007793434347462))) (.node (.node (.leaf 5128776203671128687) (.leaf 775249629149476147)) (.node (.leaf 3980182393530747027) (.leaf 11777534182767104361)))) (.node (.node (.node (.leaf 4675391108284012414) (.leaf 15401553351054709123)) (.node (.leaf 12543942337528088237) (.leaf 5045538964281687158))) (.node (.node (.leaf 17558241369451644200) (.leaf 3006853718166315338)) (.node (.leaf 2073427508610007588) (.leaf 1423210107880915519))))) (.node (.node (.node (.node (.leaf 10159335913748154240) (.leaf 10297020744924497498)) (.node (.leaf 7565190445869911761) (.leaf 16323563198597580193))) (.node (.node (.leaf 11221633137582155122) (.leaf 11376008854127111146)) (.node (.leaf 13327647184395422211) (.leaf 16702715716931052650)))) (.node (.node (.node (.leaf 8797737417795692616) (.leaf 846544194710787733)) (.node (.leaf 8134009805193752792) (.leaf 16495998933377666836))) (.node (.node (.leaf 14579395431188981565) (.leaf 3065383633436234065)) (.node (.leaf 17495859730667077426) (.leaf 13173360829794273409)))))) (.node (.node (.node (.node (.node (.leaf 1893641109415734655) (.leaf 3581870826438822864)) (.node (.leaf 9534352871672653506) (.leaf 13337687979165903081))) (.node (.node (.leaf 2154369825281883489) (.leaf 5608329795288434188)) (.node (.leaf 11072870556694264151) (.leaf 117390091496242832)))) (.node (.node (.node (.leaf 6240215289687254104) (.leaf 14363407613883644203)) (.node (.leaf 5366186269413858872) (.leaf 2333613802365811307))) (.node (.node (.leaf 2730123970602150808) (.leaf 14657732075934024730)) (.node (.leaf 4213076354975331608) (.leaf 15661145981876615209))))) (.node (.node (.node (.node (.leaf 1088037083435579893) (.leaf 14927311442372080802)) (.node (.leaf 17802776529825746284) (.leaf 8177149202089082472))) (.node (.node (.leaf 14434880669246315579) (.leaf 3505147025875721644)) (.node (.leaf 4340820972202391136) (.leaf 6600128772072369595)))) (.node (.node (.node (.leaf 6899003742454256282) (.leaf 16160525856571371227)) (.node (.leaf 3458257817763543243) (.leaf 12611862607273043289))) (.node (.node (.leaf 9042236013106464115) (.leaf 8531678176609168837)) (.node (.leaf 14525912920005858464) (.leaf 3198522733432718506))))))) (.node (.node (.node (.node (.node (.node (.leaf 5406352824825809857) (.leaf 2164443700895968329)) (.node (.leaf 7056040254720597991) (.leaf 7359943122567828750))) (.node (.node (.leaf 17599532128959011821) (.leaf 306351178929848156)) (.node (.leaf 10855222244880571175) (.leaf 17130685557133993054)))) (.node (.node (.node (.leaf 15305918073000513742) (.leaf 14837032527052689991)) (.node (.leaf 2413379270119551327) (.leaf 13802976181863514352))) (.node (.node (.leaf 6751538334731443998) (.leaf 3726913421324067076)) (.node (.leaf 2011116780650040798) (.leaf 1298165686755373133))))) (.node (.node (.node (.node (.leaf 9696865776370215854) (.leaf 15082307909728386299)) (.node (.leaf 2518239323582089605) (.leaf 9406983439938378417))) (.node (.node (.leaf 3916273493019508159) (.leaf 12234639569259440483)) (.node (.leaf 48746120106731036) (.leaf 1511285314277136799)))) (.node (.node (.node (.leaf 3129023591853437319) (.leaf 563179050858644366)) (.node (.leaf 10493314801564776018) (.leaf 4426441845913481127))) (.node (.node (.leaf 2270188270967064458) (.leaf 17293707007101916541)) (.node (.leaf 15601450577695302287) (.leaf 6644221189961965113)))))) (.node (.node (.node (.node (.node (.leaf 16235052287941908919) (.leaf 14871274577151042729)) (.node (.leaf 16733025242975772362) (.leaf 12964108726960696405))) (.node (.node (.leaf 5634848239152307405) (.leaf 18395492628825121380)) (.node (.leaf 1689901644823784518) (.leaf 5318733097821206637)))) (.node (.node (.node (.leaf 6379211454975538023) (.leaf 18104849318636216372)) (.node (.leaf 5789589370188824636) (.leaf 13963747664362475604))) (.node (.node (.leaf 12319731916110351573) (.leaf 4274399787946653531)) (.node (.leaf 2835583512912469224) (.leaf 17899306369688354524))))) (.node (.node (.node (.node (.leaf 13740134248427370124) (.leaf 17658212897597774124)) (.node (.leaf 7281227540795676739) (.leaf 9239948569604344803))) (.node (.node (.leaf 16965605292480629017) (.leaf 11129720898029325600)) (.node (.leaf 8691146523040815602) (.leaf 17957808187031226872)))) (.node (.node (.node (.leaf 18060172933666202369) (.leaf 12321961348510187977)) (.node (.leaf 17016519529365168574) (.leaf 10068241650962249442))) (.node (.node (.leaf 4769718343950495633) (.leaf 2582412526203016463)) (.node (.leaf 6468289065091314361) (.leaf 11879643523624429331)))))))))
noncomputable def g6_1 : Tree := (.node (.node (.node (.node (.node (.node (.node (.node (.leaf 9929915699334433503) (.leaf 11762223553749132049)) (.node (.leaf 14434204047023725397) (.leaf 17971397243430198600))) (.node (.node (.leaf 9121199157970655421) (.leaf 16400158632040295701)) (.node (.leaf 16211975115314974907) (.leaf 8682125845386433282)))) (.node (.node (.node (.leaf 15718200981855641965) (.leaf 1264606831577793974)) (.node (.leaf 5238511570006009694) (.leaf 2310256916433969108))) (.node (.node (.leaf 15957999539164676972) (.leaf 3347729883577484274)) (.node (.leaf 593986781812595267) (.leaf 6374939897165766087))))) (.node (.node (.node (.node (.leaf 4119860764383751456) (.leaf 5430617603270665571)) (.node (.leaf 10296606109188815788) (.leaf 17642967193035393682))) (.node (.node (.leaf 2925921247295791954) (.leaf 9257450827105268182)) (.node (.leaf 16135021677872887769) (.leaf 5940798080581315382)))) (.node (.node (.node (.leaf 464025936267359004) (.leaf 16516827628725692909)) (.node (.leaf 16284693387609981556) (.leaf 13185408271722380618))) (.node (.node (.leaf 7973640681227644538) (.leaf 7595615812773051468)) (.node (.leaf 2567581361210518578) (.leaf 7413821569157689264)))))) (.node (.node (.node (.node (.node (.leaf 12924472186670503592) (.leaf 8009223115879219244)) (.node (.leaf 4447411374147115045) (.leaf 10357157288635327072))) (.node (.node (.leaf 17819663346845695325) (.leaf 14821344073180726086)) (.node (.leaf 17214280231001459375) (.leaf 2729196351785384865)))) (.node (.node (.node (.leaf 16590342682884485114) (.leaf 4349052150203410664)) (.node (.leaf 966735282303542752) (.leaf 3172963686968335832))) (.node (.node (.leaf 13625666752999587671) (.leaf 7450324681600688629)) (.node (.leaf 2831274594481953255) (.leaf 16820204823581427503))))) (.node (.node (.node (.node (.leaf 7776896671534502348) (.leaf 5135073571210130454)) (.node (.leaf 1909757131922132772) (.leaf 15837277547424496700))) (.node (.node (.leaf 17925987365319417967) (.leaf 18084158657346964269)) (.node (.leaf 10139259391747611217) (.leaf 14617403469798778769)))) (.node (.node (.node (.leaf 13375247576983356841) (.leaf 5608565760414511717)) (.node (.leaf 6328791765470870155) (.leaf 4639309994080188102))) (.node (.node (.leaf 10939023649013554326) (.leaf 13209644400614561030)) (.node (.leaf 7033650071212316551) (.leaf 15344016494625303135))))))) (.node (.node (.node (.node (.node (.node (.leaf 707570735508485571) (.leaf 9045085700319382989)) (.node (.leaf 6415071005090325539) (.leaf 401924591934707240))) (.node (.node (.leaf 1381165972991105515) (.leaf 15063999190516187603)) (.node (.leaf 16698105304181663247) (.leaf 10838085144910181116)))) (.node (.node (.node (.leaf 8453195024538286707) (.leaf 1750604293170834598)) (.node (.leaf 2955751425597411115) (.leaf 2064418039093541769))) (.node (.node (.leaf 3545108956891084168) (.leaf 6891126709359267129)) (.node (.leaf 16499443204334589944) (.leaf 4188158676536007827))))) (.node (.node (.node (.node (.leaf 15366872493863344889) (.leaf 10083926728823100625)) (.node (.leaf 5877635587871784688) (.leaf 1658988106947666836))) (.node (.node (.leaf 17396963434738796472) (.leaf 1094845746702319015)) (.node (.leaf 17308804104612743219) (.leaf 14152000141295520987)))) (.node (.node (.node (.leaf 3617429990428111225) (.leaf 1839499579605134783)) (.node (.leaf 15549715873986031985) (.leaf 5052335251676866814))) (.node (.node (.leaf 2178012734929778308) (.leaf 9421693743739756754)) (.node (.leaf 10207194351611193822) (.leaf 1598723374827776305)))))) (.node (.node (.node (.node (.node (.leaf 18230998566328619799) (.leaf 4564328605573750296)) (.node (.leaf 14083699344669619277) (.leaf 4316506344089936540))) (.node (.node (.leaf 7842898934890125235) (.leaf 4081723094617915752)) (.node (.leaf 6699737505190396962) (.leaf 13480505947072450547)))) (.node (.node (.node (.leaf 8284602677021385424) (.leaf 14632273330162441058)) (.node (.leaf 5542401963462504000) (.leaf 12786921935758634117))) (.node (.node (.leaf 14887558079205134704) (.leaf 12130011070072504064)) (.node (.leaf 2135843695346086657) (.leaf 9360906498497273919))))) (.node (.node (.node (.node (.leaf 7112233129661629506) (.leaf 2435860285135807669)) (.node (.leaf 5360401811665024639) (.leaf 8965670139486345702))) (.node (.node (.leaf 313995550706961314) (.leaf 11934490939206778132)) (.node (.leaf 2605290163824203347) (.leaf 16765146503769771395)))) (.node (.node (.node (.leaf 10489488551411483278) (.leaf 12505917659291312013)) (.node (.leaf 9547935641306528920) (.leaf 1016788942071463436))) (.node (.node (.leaf 9806949843271533064) (.leaf 3944985910388145367)) (.node (.leaf 1988268836086298801) (.leaf 3087978684162455932)))))))) (.node (.node (.node (.node (.node (.node (.node (.leaf 17666428287953850521) (.leaf 3250033290617788713)) (.node (.leaf 9718182345974402113) (.leaf 18086556049920709313))) (.node (.node (.leaf 11611434746649923081) (.leaf 4822901609222935877)) (.node (.leaf 3757520156098134078) (.leaf 4991911704636746460)))) (.node (.node (.node (.leaf 8393770577143926772) (.leaf 9506867999006694148)) (.node (.leaf 8753440783317928974) (.leaf 14988542970744893236))) (.node (.node (.leaf 7264538798108427066) (.leaf 12447259626968752228)) (.node (.leaf 14366667964220560923) (.leaf 15688056655599090237))))) (.node (.node (.node (.node (.leaf 12672746428382889503) (.leaf 13587316640626253614)) (.node (.leaf 2482132825777373603) (.leaf 11540622938704451069))) (.node (.node (.leaf 877800478852684888) (.leaf 14975308114276790749)) (.node (.leaf 7565390340639605151) (.leaf 13889978734064197501)))) (.node (.node (.node (.leaf 10955476438719217407) (.leaf 841814118781312213)) (.node (.leaf 11082350535169562089) (.leaf 1334608446159829402))) (.node (.node (.leaf 3998958178690154651) (.leaf 15200375928018953490)) (.node (.leaf 6232465278237253013) (.leaf 15471086888902439589)))))) (.node (.node (.node (.node (.node (.leaf 5301945123457943460) (.leaf 11865380222061398160)) (.node (.leaf 8868356711073321350) (.leaf 11267668970981357573))) (.node (.node (.leaf 65825716199655457) (.leaf 16307093557034806969)) (.node (.leaf 8595320844179080759) (.leaf 11142185675326194889)))) (.node (.node (.node (.leaf 7194934278617860586) (.leaf 6188464162612225876)) (.node (.leaf 12552662466550893041) (.leaf 11401038220508147681))) (.node (.node (.leaf 8291580957887191198) (.leaf 8818513475589009626)) (.node (.leaf 6610753748171723562) (.leaf 3101754815522975426))))) (.node (.node (.node (.node (.leaf 9586577713413526026) (.leaf 10775974535087182928)) (.node (.leaf 3460817533194959333) (.leaf 13439883464278361802))) (.node (.node (.leaf 15614207853597213924) (.leaf 222221098478726478)) (.node (.leaf 5812750513550901261) (.leaf 15915474405508213986)))) (.node (.node (.node (.leaf 10686253164227439206) (.leaf 17789818058575538934)) (.node (.leaf 17461577931177729774) (.leaf 524047659986148266))) (.node (.node (.leaf 9796927293649429888) (.leaf 175394223777077828)) (.node (.leaf 11678858788196967544) (.leaf 1582564653223129091))))))) (.node (.node (.node (.node (.node (.node (.leaf 9980812650987555442) (.leaf 17043941606507530428)) (.node (.leaf 2268466491777136758) (.leaf 16017405395117400458))) (.node (.node (.leaf 13704715292249982379) (.leaf 8107427715938020226)) (.node (.leaf 6065638794123724138) (.leaf 97082175982186585)))) (.node (.node (.node (.leaf 18367381095071697231) (.leaf 6747374196317092171)) (.node (.leaf 1489837968610339758) (.leaf 7910297735077931215))) (.node (.node (.leaf 7294192857075441171) (.leaf 12042140196971669426)) (.node (.leaf 6036230858125571991) (.leaf 17516536284108331037))))) (.node (.node (.node (.node (.leaf 4845735337328541566) (.leaf 13301564376800011976)) (.node (.leaf 12217842270433474586) (.leaf 12859838323038065036))) (.node (.node (.leaf 3697896033886860048) (.leaf 5662922256666190702)) (.node (.leaf 3441277711657332983) (.leaf 17078541856303587963)))) (.node (.node (.node (.leaf 13824965372102101475) (.leaf 14252419871117801269)) (.node (.leaf 5761330139684306683) (.leaf 14503632502059414891))) (.node (.node (.leaf 14023561610872861734) (.leaf 2765022971535884957)) (.node (.leaf 12388485909809537423) (.leaf 11365594418394834668)))))) (.node (.node (.node (.node (.node (.leaf 4539491768959166759) (.leaf 6535144680810838976)) (.node (.leaf 11474335766051230381) (.leaf 13963118292431212747))) (.node (.node (.leaf 8167585908466453808) (.leaf 3837286285456388981)) (.node (.leaf 8543372524060554692) (.leaf 18197293652606871608)))) (.node (.node (.node (.leaf 6941546353618617881) (.leaf 12688426160170683226)) (.node (.leaf 1162780486361519287) (.leaf 9166567484667350196))) (.node (.node (.leaf 12273582017440779862) (.leaf 11207895223730939077)) (.node (.leaf 16879782658791304041) (.leaf 775385452004622153))))) (.node (.node (.node (.node (.leaf 13054131453583150683) (.leaf 4908941922742668986)) (.node (.leaf 15232759609092108903) (.leaf 13021797655405377351))) (.node (.node (.leaf 10406581751010031233) (.leaf 10651916368646427489)) (.node (.leaf 17241036672805537628) (.leaf 10588844858169128126)))) (.node (.node (.node (.leaf 4732555953159857694) (.leaf 18378311326233185143)) (.node (.leaf 6782946229597076207) (.leaf 16993900026140103840))) (.node (.node (.leaf 11965309035899441723) (.leaf 14756215359788736011)) (.node (.leaf 14275076561079078919) (.leaf 7690394551028619214)))))))))
noncomputable def g6_2 : Tree := (.node (.node (.node (.node (.node (.node (.node (.node (.leaf 11018318866339960336) (.leaf 12821909845853312810)) (.node (.leaf 16072508841491666404) (.leaf 12603713708127516942))) (.node (.node (.leaf 10329267397230518609) (.leaf 14717497539030030498)) (.node (.leaf 16594688962429878475) (.leaf 3734620491191863123)))) (.node (.node (.node (.leaf 6246476401309261596) (.leaf 16430537788297034476)) (.node (.leaf 6944780183078093614) (.leaf 15386325672484864179))) (.node (.node (.leaf 1941751225033390286) (.leaf 11270773179499293180)) (.node (.leaf 9138257312174477616) (.leaf 7013697932855123098))))) (.node (.node (.node (.node (.leaf 7878159758760498627) (.leaf 939437457798233931)) (.node (.leaf 17950327710561428965) (.leaf 16001977112411616404))) (.node (.node (.leaf 3218554978425655099) (.leaf 13145683269453278745)) (.node (.leaf 2383921252426885641) (.leaf 8971261539875816392)))) (.node (.node (.node (.leaf 8907194571372643750) (.leaf 1687429596316487055)) (.node (.leaf 5611371319131297799) (.leaf 8217424823989353328))) (.node (.node (.leaf 10392637032894655902) (.leaf 8708348259807848827)) (.node (.leaf 9476467418750863883) (.leaf 7237544632041533604)))))) (.node (.node (.node (.node (.node (.leaf 5903673172419565803) (.leaf 16958881770588190479)) (.node (.leaf 14061323367411920202) (.leaf 5184845037252457147))) (.node (.node (.leaf 6163363388914470365) (.leaf 3934782679086917004)) (.node (.leaf 9667694124596037735) (.leaf 3604394243883263697)))) (.node (.node (.node (.leaf 4176534588983196791) (.leaf 1085672094012060989)) (.node (.leaf 4514035260065191570) (.leaf 6088766589020497425))) (.node (.node (.leaf 15792728146823095686) (.leaf 2217889955301041838)) (.node (.leaf 17229497284739389898) (.leaf 15873125935921041992))))) (.node (.node (.node (.node (.leaf 9643915475981071929) (.leaf 7168589388066799217)) (.node (.leaf 6432489207218661760) (.leaf 4234194757771842502))) (.node (.node (.leaf 8121228191862596632) (.leaf 18078244143035499606)) (.node (.leaf 5667978494917405410) (.leaf 17109550895413160186)))) (.node (.node (.node (.leaf 868045960830124682) (.leaf 7519660495731479165)) (.node (.leaf 14347988944368616856) (.leaf 4085705851593525822))) (.node (.node (.leaf 12735155157990682660) (.leaf 8619247723943248521)) (.node (.leaf 15771162643203467102) (.leaf 4674800486602950207))))))) (.node (.node (.node (.node (.node (.node (.leaf 8192862947710394141) (.leaf 156630831181918184)) (.node (.leaf 12953506860644518749) (.leaf 1528574842902754495))) (.node (.node (.leaf 16843717407323599864) (.leaf 5965478193026268754)) (.node (.leaf 11202723518381907930) (.leaf 17468422863267617456)))) (.node (.node (.node (.leaf 10668995060948765165) (.leaf 3313982248685922430)) (.node (.leaf 2489363271317255927) (.leaf 9863872210736244640))) (.node (.node (.leaf 3578394840380732082) (.leaf 6282200613944626049)) (.node (.leaf 7411781522865339215) (.leaf 14967378796671274540))))) (.node (.node (.node (.node (.leaf 16664838130708567281) (.leaf 1614646042503843930)) (.node (.leaf 18352421763061241143) (.leaf 15694053092110963141))) (.node (.node (.leaf 2299882436636923714) (.leaf 9061727961160132692)) (.node (.leaf 11802642192317403015) (.leaf 16278038970399793420)))) (.node (.node (.node (.leaf 11869560035654396931) (.leaf 13545063748872639877)) (.node (.leaf 8480632280823664574) (.leaf 15516913158744194135))) (.node (.node (.leaf 15984313004377538961) (.leaf 5462420209521205994)) (.node (.leaf 13229757546032296089) (.leaf 837229431257144087)))))) (.node (.node (.node (.node (.node (.leaf 9563291747820928355) (.leaf 1435842655521694122)) (.node (.leaf 14284606517774197512) (.leaf 3067565101052830001))) (.node (.node (.leaf 10801076775037810741) (.leaf 12339347692379862805)) (.node (.leaf 10125776268306676725) (.leaf 14174453034376298088)))) (.node (.node (.node (.leaf 10857837496044603688) (.leaf 17643123442664434207)) (.node (.leaf 14656376513001852332) (.leaf 9384573525442790955))) (.node (.node (.leaf 7659245535434831323) (.leaf 16330609026917612924)) (.node (.leaf 6779051736451980544) (.leaf 315651530927441504))))) (.node (.node (.node (.node (.leaf 2554911874937220933) (.leaf 32589502063735067)) (.node (.leaf 1729496513040134039) (.leaf 5402317848291767369))) (.node (.node (.leaf 16397651330111231672) (.leaf 6663435565892904875)) (.node (.leaf 11603616541170424879) (.leaf 12172381537206125166)))) (.node (.node (.node (.leaf 6875651513400125244) (.leaf 11324605628249299383)) (.node (.leaf 3886481227242717644) (.leaf 14232658286603796363))) (.node (.node (.leaf 15477398804187733354) (.leaf 11057113702285113533)) (.node (.leaf 2002095874549036406) (.leaf 2796517551044262841)))))))) (.node (.node (.node (.node (.node (.node (.node (.leaf 3966716789701190146) (.leaf 14530353447941786829)) (.node (.leaf 13934846704570700611) (.leaf 17511941552742093051))) (.node (.node (.leaf 9920760836687159314) (.leaf 13710025653964010349)) (.node (.leaf 14781338448048980648) (.leaf 14897591307029951262)))) (.node (.node (.node (.leaf 15068905987225463944) (.leaf 9296354723327912178)) (.node (.leaf 14583577596405286778) (.leaf 10466451050585426901))) (.node (.node (.leaf 8857324046893336172) (.leaf 15174477195026618164)) (.node (.leaf 12258027707328637929) (.leaf 13340393628085705692))))) (.node (.node (.node (.node (.leaf 8404969953387789808) (.leaf 12059798324044186702)) (.node (.leaf 722618353350413317) (.leaf 17687189056618573523))) (.node (.node (.leaf 7596937932304627264) (.leaf 2325852508449470776)) (.node (.leaf 17813136835665681401) (.leaf 2909154723214712171)))) (.node (.node (.node (.leaf 9761165363604541097) (.leaf 18256501442081933215)) (.node (.leaf 17220838577615851815) (.leaf 17401537158033551942))) (.node (.node (.leaf 14440740584086458913) (.leaf 6595907341491219981)) (.node (.leaf 4761316160349809741) (.leaf 457537566616319824)))))) (.node (.node (.node (.node (.node (.leaf 4595584866860601536) (.leaf 5198497717035833597)) (.node (.leaf 8325519977479970326) (.leaf 13906916185721111745))) (.node (.node (.leaf 11116787144086319986) (.leaf 8741412681747426145)) (.node (.leaf 11480335220640348852) (.leaf 6702047972815924517)))) (.node (.node (.node (.leaf 13005506504898046919) (.leaf 222577678201067844)) (.node (.leaf 15057537554332945971) (.leaf 2817702041564837235))) (.node (.node (.leaf 1844920306146825314) (.leaf 1223482531157640417)) (.node (.leaf 11983699025228148903) (.leaf 1454975914742202157))))) (.node (.node (.node (.node (.leaf 13095089340628484310) (.leaf 12454130447515104975)) (.node (.leaf 16549792664476064694) (.leaf 17941938131409367337))) (.node (.node (.leaf 7724676235586255465) (.leaf 709667724619895796)) (.node (.leaf 12649833969939387549) (.leaf 5987593064034576761)))) (.node (.node (.node (.leaf 3143369787470723489) (.leaf 6396010567200961724)) (.node (.leaf 11715353982817961951) (.leaf 15224910854486237325))) (.node (.node (.leaf 14002073549451302873) (.leaf 13776438175838727892)) (.node (.leaf 8069238022275876935) (.leaf 5023897289704486756))))))) (.node (.node (.node (.node (.node (.node (.leaf 10541402634073908655) (.leaf 16875699138024449234)) (.node (.leaf 5483508626817549769) (.leaf 613331237643143256))) (.node (.node (.leaf 13269575436774591564) (.leaf 3485302771643398366)) (.node (.leaf 18416472957980360422) (.leaf 8536518414037692302)))) (.node (.node (.node (.leaf 2135672119404212530) (.leaf 10061140981997579664)) (.node (.leaf 12241247190546032229) (.leaf 5823922620422130844))) (.node (.node (.leaf 12868768232300446499) (.leaf 515222478243029761)) (.node (.leaf 17781711565091160245) (.leaf 1265858800697754562))))) (.node (.node (.node (.node (.leaf 11900915731025055456) (.leaf 13600261560169175381)) (.node (.leaf 5291674286301409957) (.leaf 15605842630508920665))) (.node (.node (.leaf 6539095377947589999) (.leaf 4961877771627241710)) (.node (.leaf 9167344427537746392) (.leaf 16765529457524517886)))) (.node (.node (.node (.leaf 1037138143173055123) (.leaf 4840661466922622484)) (.node (.leaf 3781341672613747355) (.leaf 13687848474920837670))) (.node (.node (.leaf 7457242630756634433) (.leaf 9958906077310060015)) (.node (.leaf 5062563301434843313) (.leaf 17354611133537188980)))))) (.node (.node (.node (.node (.node (.leaf 2682827891697587061) (.leaf 17043336580974708998)) (.node (.leaf 15315687812532239480) (.leaf 7119351663956308315))) (.node (.node (.leaf 12518379613588802256) (.leaf 10176438189865959684)) (.node (.leaf 18097071992543596950) (.leaf 13424474895698606466)))) (.node (.node (.node (.leaf 16188010515163684150) (.leaf 4391432864964537475)) (.node (.leaf 10638077640245222084) (.leaf 7949891729560308397))) (.node (.node (.leaf 4742547061005625988) (.leaf 3333477952062350070)) (.node (.leaf 2959061388535423959) (.leaf 403139792543873685))))) (.node (.node (.node (.node (.leaf 18182883438753599651) (.leaf 9263483794008775738)) (.node (.leaf 2024306708323296499) (.leaf 7346331335008504595))) (.node (.node (.leaf 2607639641500737255) (.leaf 94622177844350435)) (.node (.leaf 5696589382228661855) (.leaf 10896265074467890208)))) (.node (.node (.node (.leaf 3451123166610545254) (.leaf 7791400455427328127)) (.node (.leaf 11447375076442480570) (.leaf 11569729466370874402))) (.node (.node (.leaf 1325867642951799818) (.leaf 10232634387668681052)) (.node (.leaf 4432008278719833087) (.leaf 4316349316357840410)))))))))
noncomputable def g6_3 : Tree := (.node (.node (.node (.node (.node (.node (.node (.node (.leaf 14532583713109551211) (.leaf 5726929106301956297)) (.node (.leaf 12861930671393647097) (.leaf 5474257972169691800))) (.node (.node (.leaf 16801706934807881931) (.leaf 10734982085403790445)) (.node (.leaf 15467191608805120536) (.leaf 6787511411526099623)))) (.node (.node (.node (.leaf 3199149225487707177) (.leaf 7504577563672660906)) (.node (.leaf 12977566439991542109) (.leaf 4054768397893590546))) (.node (.node (.leaf 18248802425013885087) (.leaf 7641496241509741652)) (.node (.leaf 4496501526046403960) (.leaf 7011005371942807487))))) (.node (.node (.node (.node (.leaf 3620545235611224109) (.leaf 18163777483485178620)) (.node (.leaf 5940624881130553568) (.leaf 12263591587106230791))) (.node (.node (.leaf 8803088513939002169) (.leaf 7944748858091192821)) (.node (.leaf 967983679229128545) (.leaf 9364787461116068466)))) (.node (.node (.node (.leaf 11356454209984240140) (.leaf 8944060709450854643)) (.node (.leaf 12029524135926467211) (.leaf 15239062821613436182))) (.node (.node (.leaf 12205399425071519338) (.leaf 3271618804146944964)) (.node (.leaf 12168428124344479161) (.leaf 17860998109800988724)))))) (.node (.node (.node (.node (.node (.leaf 1495701497606161917) (.leaf 5779908987906989315)) (.node (.leaf 15189142780960702022) (.leaf 11856241262817720461))) (.node (.node (.leaf 16463765291932115201) (.leaf 9739117933705742750)) (.node (.leaf 4188793598642675436) (.leaf 4952965100278898595)))) (.node (.node (.node (.leaf 5001298366882610731) (.leaf 17791128945225573993)) (.node (.leaf 14721006201191771155) (.leaf 7730695158425994702))) (.node (.node (.leaf 16902169439733684006) (.leaf 16092362044664463944)) (.node (.leaf 7281775690024022244) (.leaf 6419544388488270288))))) (.node (.node (.node (.node (.leaf 16564774771880922359) (.leaf 2612915885815249974)) (.node (.leaf 14068107821345082844) (.leaf 13285547859729835786))) (.node (.node (.leaf 13804759134858457969) (.leaf 7825159939746419954)) (.node (.leaf 7128350976318006167) (.leaf 346606698443752527)))) (.node (.node (.node (.leaf 11917707549161246039) (.leaf 3824663543916945408)) (.node (.leaf 6656747815696667576) (.leaf 16042045300412622136))) (.node (.node (.leaf 17692449872063876045) (.leaf 187810374597365346)) (.node (.leaf 12102208321819386060) (.leaf 15363325394131463055))))))) (.node (.node (.node (.node (.node (.node (.leaf 12549586460100887486) (.leaf 1535651703067278033)) (.node (.leaf 14653565946173304651) (.leaf 10433968767364362678))) (.node (.node (.leaf 4354369419933563253) (.leaf 16168162039585437477)) (.node (.leaf 17434945875288866407) (.leaf 2244099488914895745)))) (.node (.node (.node (.leaf 10738262923817822893) (.leaf 1225250277536588151)) (.node (.leaf 2950570598563231624) (.leaf 4283660738554937282))) (.node (.node (.leaf 7570579190647921706) (.leaf 927968906487584680)) (.node (.leaf 6535262273515804693) (.leaf 5383006670937880072))))) (.node (.node (.node (.node (.leaf 577365185111002697) (.leaf 1216602545246696409)) (.node (.leaf 1091979450750152698) (.leaf 10914077252846804453))) (.node (.node (.leaf 4734280408821801875) (.leaf 13178620789241624974)) (.node (.leaf 8896650489110746240) (.leaf 13583180971993851092)))) (.node (.node (.node (.leaf 4847176392597550787) (.leaf 564737582036350067)) (.node (.leaf 15762374933833064340) (.leaf 3779406127301835962))) (.node (.node (.leaf 17513740309724580559) (.leaf 17504984798171136439)) (.node (.leaf 3330939876942666042) (.leaf 7488892753009575720)))))) (.node (.node (.node (.node (.node (.leaf 1622870649723037998) (.leaf 8468073452679829082)) (.node (.leaf 1985243469175496281) (.leaf 14614979430577857820))) (.node (.node (.leaf 1753419550763552477) (.leaf 16771060800820784420)) (.node (.leaf 3141544959838840406) (.leaf 12821558999536090745)))) (.node (.node (.node (.leaf 8234825708717380400) (.leaf 722934285729748505)) (.node (.leaf 16370375584230521516) (.leaf 14464836285672498368))) (.node (.node (.leaf 2969140602417071343) (.leaf 18107514864197846866)) (.node (.leaf 10134109369252718693) (.leaf 6897101523878933807))))) (.node (.node (.node (.node (.leaf 1859347095591960906) (.leaf 6292862430074388359)) (.node (.leaf 8160457624295543973) (.leaf 17246944972416035652))) (.node (.node (.leaf 8342833164575579885) (.leaf 6251874313924601119)) (.node (.leaf 13655671248588359528) (.leaf 8577425275476651601)))) (.node (.node (.node (.leaf 107349090755934968) (.leaf 7232495212471815590)) (.node (.leaf 15093887936865314140) (.leaf 13501208133539687173))) (.node (.node (.leaf 5310470603144639869) (.leaf 12620140555240962075)) (.node (.leaf 9212903734656259542) (.leaf 9032734544252142861)))))))) (.node (.node (.node (.node (.node (.node (.node (.leaf 699712711045985063) (.leaf 15660779996301319570)) (.node (.leaf 2489351746987333102) (.leaf 11293754690104671125))) (.node (.node (.leaf 6976325079604914732) (.leaf 5243859335704011597)) (.node (.leaf 4760153795541407094) (.leaf 2683153291840757648)))) (.node (.node (.node (.leaf 4440908496373816773) (.leaf 11577502253404390997)) (.node (.leaf 2167473612407035548) (.leaf 6140423299835628320))) (.node (.node (.leaf 17883252216815799682) (.leaf 11119009319611479603)) (.node (.leaf 14337540082607420681) (.leaf 5531228767774582616))))) (.node (.node (.node (.node (.leaf 473883104892438544) (.leaf 14026649734727779204)) (.node (.leaf 3051225620566320382) (.leaf 15983650621829945438))) (.node (.node (.leaf 12940880336267090259) (.leaf 12398815198553080892)) (.node (.leaf 1369857358708985537) (.leaf 3567706841482966494)))) (.node (.node (.node (.leaf 11479695767265175904) (.leaf 13051059403936627679)) (.node (.leaf 6601196008706646384) (.leaf 18405984621184674966))) (.node (.node (.leaf 1659113280201463706) (.leaf 1055163566512102560)) (.node (.leaf 11680792723029761050) (.leaf 8686035809096238068)))))) (.node (.node (.node (.node (.node (.leaf 13762557337954276055) (.leaf 15547628693946977333)) (.node (.leaf 12362693514878065094) (.leaf 10353762048913096169))) (.node (.node (.leaf 2858132633731225599) (.leaf 2746311749301779060)) (.node (.leaf 6906241430663814) (.leaf 6038983164858730983)))) (.node (.node (.node (.leaf 14207987150704344226) (.leaf 16953347054855600102)) (.node (.leaf 419757284839454851) (.leaf 7894616396598444646))) (.node (.node (.leaf 8104680344812671852) (.leaf 2527952277227938515)) (.node (.leaf 17076759182269800635) (.leaf 10640953021111193890))))) (.node (.node (.node (.node (.leaf 17078987063607300223) (.leaf 9809562065376961146)) (.node (.leaf 13949314772776690523) (.leaf 12738529233815363562))) (.node (.node (.leaf 5593427421233622283) (.leaf 13435917047111651783)) (.node (.leaf 9923924458161262770) (.leaf 13258334583938053185)))) (.node (.node (.node (.leaf 10808968613497410250) (.leaf 18044286734436152555)) (.node (.leaf 3979578620274957189) (.leaf 13890870455335006526))) (.node (.node (.leaf 13356612930292072629) (.leaf 17644114671086498333)) (.node (.leaf 14846878635626133859) (.leaf 8568893228376502530))))))) (.node (.node (.node (.node (.node (.node (.leaf 5186853152978602246) (.leaf 10523674461563415621)) (.node (.leaf 2374532142930292560) (.leaf 1920145127744178993))) (.node (.node (.leaf 15922343284265156497) (.leaf 3746258422954903216)) (.node (.leaf 9405376637149446313) (.leaf 1351096072692991944)))) (.node (.node (.node (.leaf 7173858731904516631) (.leaf 858039028656499580)) (.node (.leaf 9230986850649983734) (.leaf 16584119320856279163))) (.node (.node (.leaf 17958168582752265377) (.leaf 9542003158686170439)) (.node (.leaf 2074857213061525102) (.leaf 18363228956028639808))))) (.node (.node (.node (.node (.leaf 6751125965819719305) (.leaf 9131390344874171313)) (.node (.leaf 8064115247635724785) (.leaf 10005798074941688024))) (.node (.node (.leaf 9676433793202051940) (.leaf 15848324430124130365)) (.node (.leaf 10060488753308651796) (.leaf 17197398953252753362)))) (.node (.node (.node (.leaf 9649848550533169067) (.leaf 3953459585165980117)) (.node (.leaf 16226596651578743351) (.leaf 8391337838622964814))) (.node (.node (.leaf 3439093238652295439) (.leaf 11801981027062007547)) (.node (.leaf 14371111346082554542) (.leaf 11424546062798317089)))))) (.node (.node (.node (.node (.node (.leaf 267680879519859729) (.leaf 5633228279909869487)) (.node (.leaf 14975617204228714124) (.leaf 11631028736651239906))) (.node (.node (.leaf 16346141975949575905) (.leaf 6074601708380202649)) (.node (.leaf 4585232232734226211) (.leaf 7368822077293834984)))) (.node (.node (.node (.leaf 8783476957032085130) (.leaf 2113006938986024708)) (.node (.leaf 3494969020888177882) (.leaf 15611683065779457181))) (.node (.node (.leaf 5088421203022420803) (.leaf 14996255507257282523)) (.node (.leaf 16647524576909907214) (.leaf 11055182337334218878))))) (.node (.node (.node (.node (.leaf 15336345700792127538) (.leaf 2442225546868491709)) (.node (.leaf 10509212407623781019) (.leaf 9462497620766781604))) (.node (.node (.leaf 5864657310798899522) (.leaf 14137740146215700799)) (.node (.leaf 17311128557561855459) (.leaf 11207141449934142388)))) (.node (.node (.node (.leaf 12472714083339736159) (.leaf 4676885861461039292)) (.node (.leaf 10241278864347099707) (.leaf 6389792791155804271))) (.node (.node (.leaf 4143083026010162160) (.leaf 10184792455633528908)) (.node (.leaf 10995198161842949918) (.leaf 14813147110901689011)))))))))
noncomputable def g6 : G := ⟨g6_0, g6_1, g6_2, g6_3, ⟨12688881861777676244, 13513942713837020029, 3948113877487744408⟩⟩

noncomputable def g7_0 : Tree := (.node (.node (.node (.node (.node (.node (.node (.node (.leaf 7326532424892285985) (.leaf 475519929704981960)) (.node (.leaf 10198791877494802711) (.leaf 9874238119857463883))) (.node (.node (.leaf 10034353347299297733) (.leaf 392798098591260028)) (.node (.leaf 3196649697557868294) (.leaf 951430073454882425)))) (.node (.node (.node (.leaf 12442442819972212652) (.leaf 8787818363534743492)) (.node (.leaf 13068250196054220809) (.leaf 7169478798284766108))) (.node (.node (.leaf 6288860578954744100) (.leaf 8101497793541785921)) (.node (.leaf 6673034751081309749) (.leaf 8404737766993329407))))) (.node (.node (.node (.node (.leaf 4183918608477075851) (.leaf 10619559223552385985)) (.node (.leaf 5529137317536999699) (.leaf 5442527394564131622))) (.node (.node (.leaf 8695275458559096637) (.leaf 13866646761123585585)) (.node (.leaf 2683305533367294155) (.leaf 6994693983588848263)))) (.node (.node (.node (.leaf 13706809446266313878) (.leaf 12870596505956292199)) (.node (.leaf 14747792857559329450) (.leaf 3816125515141644779))) (.node (.node (.leaf 11499494656042103333) (.leaf 12075244712914257710)) (.node (.leaf 4400507876907059432) (.leaf 8903474399002523578)))))) (.node (.node (.node (.node (.node (.leaf 8206891962095654563) (.leaf 1838730929430737632)) (.node (.leaf 15708896836030137422) (.leaf 13194031433317844430))) (.node (.node (.leaf 8317032220408095064) (.leaf 10337170218555817015)) (.node (.leaf 17505810033054654203) (.leaf 4545694660856763096)))) (.node (.node (.node (.leaf 7099119932047238874) (.leaf 14575888889085989827)) (.node (.leaf 3894646989680773637) (.leaf 8575759339236331749))) (.node (.node (.leaf 5899731157117776097) (.leaf 5197845962631949540)) (.node (.leaf 13429146777763921852) (.leaf 1626305078079332279))))) (.node (.node (.node (.node (.leaf 7515780234771313423) (.leaf 879022480302493172)) (.node (.leaf 1051572642084471341) (.leaf 7925056078125127554))) (.node (.node (.leaf 2854788238994122697) (.leaf 18188661661100199164)) (.node (.leaf 11537064050715099070) (.leaf 5957887758291373700)))) (.node (.node (.node (.leaf 16060791804862643480) (.leaf 10715946133098540868)) (.node (.leaf 9805489042567479322) (.leaf 7769721870528127923))) (.node (.node (.leaf 1584778887113142621) (.leaf 7439927236802958837)) (.node (.leaf 14289974840980497625) (.leaf 6354621555236886440))))))) (.node (.node (.node (.node (.node (.node (.leaf 6264759513208221812) (.leaf 6071828835681657245)) (.node (.leaf 14493922930766312685) (.leaf 10897385927606049311))) (.node (.node (.leaf 18255976438778098594) (.leaf 16086008667863024631)) (.node (.leaf 17611432056867585996) (.leaf 7635530122310818228)))) (.node (.node (.node (.leaf 15068557935515087218) (.leaf 4758640481607017768)) (.node (.leaf 6823743654967408362) (.leaf 2026402552943240712))) (.node (.node (.leaf 2274403753767071165) (.leaf 6172719730942024358)) (.node (.leaf 11008504164842063503) (.leaf 17331730977785659801))))) (.node (.node (.node (.node (.leaf 827872524451735644) (.leaf 16257854761114218155)) (.node (.leaf 6528102665906176639) (.leaf 2936846505920295504))) (.node (.node (.leaf 5177162446058139986) (.leaf 10131515297198586523)) (.node (.leaf 2117121204751345750) (.leaf 3293218743171040328)))) (.node (.node (.node (.leaf 11913989160600002150) (.leaf 11071379049642217684)) (.node (.leaf 11454682562217511411) (.leaf 5633704670417032256))) (.node (.node (.leaf 4048642210035031534) (.leaf 14266819088462607381)) (.node (.leaf 291957615572123022) (.leaf 13516920820641765498)))))) (.node (.node (.node (.node (.node (.leaf 1275700233698305925) (.leaf 9331507551815137072)) (.node (.leaf 10544432977812105591) (.leaf 17771383895365373653))) (.node (.node (.leaf 8059583271480196143) (.leaf 9005700203160125670)) (.node (.leaf 12333220302495517964) (.leaf 12682920939352929786)))) (.node (.node (.node (.leaf 2431555658859085874) (.leaf 17171336640296204493)) (.node (.leaf 11740724169101936727) (.leaf 11628041324270639827))) (.node (.node (.leaf 6984326448453800849) (.leaf 15157287960468018317)) (.node (.leaf 15805354513198109406) (.leaf 1892684079419901994))))) (.node (.node (.node (.node (.leaf 10416508394011835980) (.leaf 3362002546430801162)) (.node (.leaf 14469730750750791529) (.leaf 9197070159074913808))) (.node (.node (.leaf 4362376354738402874) (.leaf 15503621361378502292)) (.node (.leaf 3433736922393901332) (.leaf 15870147456495717296)))) (.node (.node (.node (.leaf 13294152188252081879) (.leaf 9985821464208213399)) (.node (.leaf 9741574209678451843) (.leaf 18028789312026798390))) (.node (.node (.leaf 9129191235632798613) (.leaf 4933144642389889007)) (.node (.leaf 5319433144622491040) (.leaf 9679031952771178265)))))))) (.node (.node (.node (.node (.node (.node (.node (.leaf 15052989659995770303) (.leaf 17389802390996497272)) (.node (.leaf 2456656431964873071) (.leaf 253007793434347462))) (.node (.node (.leaf 9646347200633146614) (.leaf 775251828172731699)) (.node (.leaf 3281219957835266) (.leaf 11777534182968400264)))) (.node (.node (.node (.leaf 9543535246419975296) (.leaf 15401559948117528866)) (.node (.leaf 16417194160360761993) (.leaf 5045538964285274998))) (.node (.node (.leaf 14900133785323990942) (.leaf 1709817025481908554)) (.node (.leaf 1159276677088139307) (.leaf 4017385988949820223))))) (.node (.node (.node (.node (.leaf 637155861632911029) (.leaf 10258740148091848282)) (.node (.leaf 11368730686239485195) (.leaf 16323563199934383521))) (.node (.node (.leaf 12470100621119309194) (.leaf 8493704306631502777)) (.node (.leaf 9497044335327758392) (.leaf 16702715678281266026)))) (.node (.node (.node (.leaf 15432862753402701023) (.leaf 8268476380614940413)) (.node (.leaf 1101531925488819057) (.leaf 16493747135798169517))) (.node (.node (.leaf 5362091830525886922) (.leaf 3094907719672680785)) (.node (.leaf 12558370312173966294) (.leaf 13173360065290092999)))))) (.node (.node (.node (.node (.node (.leaf 15325698533494062622) (.leaf 3581870826440788944)) (.node (.leaf 4885655804468299615) (.leaf 13337687980138977513))) (.node (.node (.leaf 17287271193370441470) (.leaf 5608329795942795239)) (.node (.leaf 13602142497826242658) (.leaf 16943964199259258512)))) (.node (.node (.node (.leaf 3614714545746433293) (.leaf 14341452563916913050)) (.node (.leaf 15634373565971471468) (.leaf 2333460291631477099))) (.node (.node (.leaf 10742063335279355651) (.leaf 14657769459765553829)) (.node (.leaf 14184689976433498412) (.leaf 15686197254812383273))))) (.node (.node (.node (.node (.leaf 13638399734502904978) (.leaf 14957147914455757941)) (.node (.leaf 1791169944495815190) (.leaf 4646327094227116136))) (.node (.node (.leaf 12243609596099171367) (.leaf 3505147025869630700)) (.node (.leaf 11227657735155493073) (.leaf 6757877679893081531)))) (.node (.node (.node (.leaf 6570142600835156498) (.leaf 16148140953804451547)) (.node (.leaf 13981717028673925660) (.leaf 12612000047954572462))) (.node (.node (.leaf 3826951036716057295) (.leaf 8531678528784714994)) (.node (.leaf 17987747501250882331) (.leaf 12139584163495985937))))))) (.node (.node (.node (.node (.node (.node (.leaf 715509399125248704) (.leaf 2185272849172556873)) (.node (.leaf 15215755168989898899) (.leaf 7359943124430099726))) (.node (.node (.leaf 10483493548586531778) (.leaf 16879683569795120931)) (.node (.leaf 6437952619485122561) (.leaf 17130685743750636638)))) (.node (.node (.node (.leaf 4752059262918190006) (.leaf 14834217270477513287)) (.node (.leaf 11982936846988725614) (.leaf 13775110156166102768))) (.node (.node (.leaf 6885302882612581661) (.leaf 3726892693811485444)) (.node (.leaf 11888555456682088960) (.leaf 1298165709212201037))))) (.node (.node (.node (.node (.leaf 5990141979145383257) (.leaf 3120747299441982547)) (.node (.leaf 16823850759129161903) (.leaf 9407009072336768689))) (.node (.node (.leaf 15940815319204040612) (.leaf 7262853597134314595)) (.node (.leaf 1415969801801299329) (.leaf 1511285314444856479)))) (.node (.node (.node (.leaf 4173882324556677747) (.leaf 538690727884817336)) (.node (.leaf 10824326524176862983) (.leaf 7962893049579203495))) (.node (.node (.leaf 11271801392840506008) (.leaf 9079141286660678781)) (.node (.leaf 12785592380605424444) (.leaf 4489530243241893433)))))) (.node (.node (.node (.node (.node (.leaf 7797222939173600574) (.leaf 17573689437265401513)) (.node (.leaf 5793088096868569935) (.leaf 12964108860116413525))) (.node (.node (.leaf 17826553951895796325) (.leaf 18438276825279046244)) (.node (.leaf 17039135021328948729) (.leaf 5751084254098290797)))) (.node (.node (.node (.leaf 5023550532192022493) (.leaf 18107382120980275252)) (.node (.leaf 1982436753304362374) (.leaf 13963729526712924244))) (.node (.node (.leaf 7666184007457860155) (.leaf 4274399641917765467)) (.node (.leaf 148487273101562435) (.leaf 17899306648861277660))))) (.node (.node (.node (.node (.leaf 12989224816560814405) (.leaf 17663299238253648254)) (.node (.leaf 16638513877001698226) (.leaf 9239948569604344803))) (.node (.node (.leaf 111283052435562310) (.leaf 11129721344705914144)) (.node (.leaf 18346725777434579266) (.leaf 2609540654604218616)))) (.node (.node (.node (.leaf 16567580134133934945) (.leaf 2738211606715327217)) (.node (.leaf 3009282009806015072) (.leaf 12302027066144962274))) (.node (.node (.leaf 8801802026176211410) (.leaf 2582412526203019131)) (.node (.leaf 14059588544075272332) (.leaf 16779559892423875440)))))))))
noncomputable def g7_1 : Tree := (.node (.node (.node (.node (.node (.node (.node (.node (.leaf 15484860373155732731) (.leaf 7294652723397600007)) (.node (.leaf 9979046173365622175) (.leaf 17971379107310024264))) (.node (.node (.leaf 8001346375601067367) (.leaf 16419017455479909653)) (.node (.leaf 14444932949934848849) (.leaf 8682124745874805506)))) (.node (.node (.node (.leaf 7720987895757363204) (.leaf 6308439402628122038)) (.node (.leaf 14952422588167736977) (.leaf 2310256916870307796))) (.node (.node (.leaf 5837164069111254401) (.leaf 17800822325891338482)) (.node (.leaf 17766500699531665944) (.leaf 6348692991253470591))))) (.node (.node (.node (.node (.leaf 12585698385184922634) (.leaf 15506729077175838114)) (.node (.leaf 7394816162466898425) (.leaf 17642967193035393579))) (.node (.node (.leaf 12137414756959913722) (.leaf 9295168568474956246)) (.node (.leaf 690458989743783620) (.leaf 5940798079155252022)))) (.node (.node (.node (.leaf 2212153801102588186) (.leaf 16516827628723137005)) (.node (.leaf 3246750346399852489) (.leaf 1880810256027712996))) (.node (.node (.leaf 15047480939568254917) (.leaf 7595615812767611931)) (.node (.leaf 11864425505785796143) (.leaf 10944738234462498992)))))) (.node (.node (.node (.node (.node (.leaf 11684931853512105504) (.leaf 16621603005356310564)) (.node (.leaf 16441932009625327794) (.leaf 16048115856761359))) (.node (.node (.leaf 6686662386438348910) (.leaf 14821344072039875398)) (.node (.leaf 11398201371763888592) (.leaf 2729195783104123041)))) (.node (.node (.node (.leaf 3655700421898714702) (.leaf 4349052013049648104)) (.node (.leaf 5074194351009645923) (.leaf 17440367306478088920))) (.node (.node (.leaf 8636527484455710662) (.leaf 7450324684503148322)) (.node (.leaf 12040366486383928537) (.leaf 16835685947285900082))))) (.node (.node (.node (.node (.leaf 6929357650983782534) (.leaf 4702727787947029616)) (.node (.leaf 13178854626242584364) (.leaf 15797528006412581948))) (.node (.node (.leaf 957588421713497389) (.leaf 9725258946905157097)) (.node (.leaf 5177378015286756989) (.leaf 17300704423301562974)))) (.node (.node (.node (.leaf 319701894295282543) (.leaf 5608565757495276133)) (.node (.leaf 12253098154752940115) (.leaf 4655286997555132108))) (.node (.node (.leaf 2008521953854804057) (.leaf 13248769353003555807)) (.node (.leaf 6507650645422277736) (.leaf 15292714380792572511))))))) (.node (.node (.node (.node (.node (.node (.leaf 10210919975062004016) (.leaf 1464119684419817165)) (.node (.leaf 532188715876808861) (.leaf 6814942709170771584))) (.node (.node (.leaf 17167698721652003460) (.leaf 11672788669168564179)) (.node (.leaf 10865396007246307064) (.leaf 16674675494923247100)))) (.node (.node (.node (.leaf 15264755707843311129) (.leaf 1750604293174013606)) (.node (.leaf 4934029965382208807) (.leaf 15393665561226696280))) (.node (.node (.leaf 17248093590344301148) (.leaf 6891126709359215417)) (.node (.leaf 6724989853654523232) (.leaf 4188209778056948627))))) (.node (.node (.node (.node (.leaf 2061562649469254629) (.leaf 10084002595125397969)) (.node (.leaf 11501688566802148527) (.leaf 1658806686992212884))) (.node (.node (.leaf 8503368369863459958) (.leaf 1135378141150795751)) (.node (.leaf 14607291599704516176) (.leaf 14152011133341563355)))) (.node (.node (.node (.leaf 15934048595176412599) (.leaf 14882130142952959423)) (.node (.leaf 6229968598170227421) (.leaf 13771432773126596638))) (.node (.node (.leaf 4016176851907095550) (.leaf 15618511591075733714)) (.node (.leaf 3395841827945034699) (.leaf 7074884751143283117)))))) (.node (.node (.node (.node (.node (.leaf 8850855437085845235) (.leaf 4564378083597000376)) (.node (.leaf 3169299806866199362) (.leaf 8351731610211400348))) (.node (.node (.leaf 8432057534656150849) (.leaf 4081723094617915783)) (.node (.leaf 3329692031179512821) (.leaf 5698187595138968087)))) (.node (.node (.node (.leaf 1809509715710767537) (.leaf 14693723452964150168)) (.node (.leaf 7950314423397414915) (.leaf 12819854507691486341))) (.node (.node (.leaf 12383214915340241686) (.leaf 11010455950915485440)) (.node (.leaf 3561729819171678833) (.leaf 9360906498497273919))))) (.node (.node (.node (.node (.leaf 1619983928069655934) (.leaf 17423839848145380533)) (.node (.leaf 17924250182714804679) (.leaf 8965780090647091686))) (.node (.node (.leaf 13672538107119863776) (.leaf 13078686719535593492)) (.node (.leaf 3058864145199591288) (.leaf 16784286802179335539)))) (.node (.node (.node (.leaf 5391065703073461177) (.leaf 12471577414219583246)) (.node (.leaf 4301441094955031138) (.leaf 1013692717327239436))) (.node (.node (.leaf 15702994921952374527) (.leaf 3919089873221008599)) (.node (.leaf 10242370793303990764) (.leaf 12221423864004688252)))))))) (.node (.node (.node (.node (.node (.node (.node (.leaf 725798592061716481) (.leaf 16220400990538930473)) (.node (.leaf 3788741368884966743) (.leaf 18086556049132165825))) (.node (.node (.leaf 15064783415549412303) (.leaf 16135944461588158533)) (.node (.leaf 8165783386861764754) (.leaf 11044749603822668319)))) (.node (.node (.node (.leaf 8285813764670136914) (.leaf 12946773663617817453)) (.node (.leaf 16347669290034428813) (.leaf 7236889240216096308))) (.node (.node (.leaf 5503466492432220143) (.leaf 12447259893256699242)) (.node (.leaf 3213763233493848652) (.leaf 9870479057665705021))))) (.node (.node (.node (.node (.leaf 5833470127292550160) (.leaf 13605049907756408622)) (.node (.leaf 599140757811495268) (.leaf 11540623247676020126))) (.node (.node (.leaf 10406215570523453065) (.leaf 4526957395389067673)) (.node (.leaf 9188987279206111189) (.leaf 13890010619565858801)))) (.node (.node (.node (.leaf 2908440984675696960) (.leaf 841814118781045422)) (.node (.leaf 4996273767635994537) (.leaf 1329260894048729498))) (.node (.node (.leaf 17689816382781442110) (.leaf 15200312156344542482)) (.node (.leaf 5464619573771711107) (.leaf 12669003671841514917)))))) (.node (.node (.node (.node (.node (.leaf 15719140120823191821) (.leaf 13738877667047524496)) (.node (.leaf 14108290988621807016) (.leaf 11267668970981303301))) (.node (.node (.leaf 10336946962099240570) (.leaf 8741046186005152398)) (.node (.leaf 10494372722235704618) (.leaf 11142185675338278004)))) (.node (.node (.node (.leaf 7199880558431151687) (.leaf 6044363268180191060)) (.node (.leaf 7834326236277920955) (.leaf 1438287497333764966))) (.node (.node (.leaf 4177263906950130173) (.leaf 18258094578441285850)) (.node (.leaf 16955468213403641933) (.leaf 8888316858459664066))))) (.node (.node (.node (.node (.leaf 13926303293253237731) (.leaf 10775974535088755763)) (.node (.leaf 18376611492161883300) (.leaf 13467468011996006090))) (.node (.node (.leaf 9373722941956405834) (.leaf 222221098478726644)) (.node (.leaf 9881499095835287607) (.leaf 15911122538485476578)))) (.node (.node (.node (.leaf 1243415426403299041) (.leaf 1216584778610404086)) (.node (.leaf 14353865476539470120) (.leaf 6432790681996575914))) (.node (.node (.leaf 9743540043861050795) (.leaf 184965272327912004)) (.node (.leaf 9479392054171975974) (.leaf 1582565318943059976))))))) (.node (.node (.node (.node (.node (.node (.leaf 4433345580043290405) (.leaf 17043989985019117647)) (.node (.leaf 3821048710743593283) (.leaf 16010368517780403594))) (.node (.node (.leaf 13999853343480123374) (.leaf 8107427715941690242)) (.node (.leaf 10713402905705755194) (.leaf 97082119342306454)))) (.node (.node (.node (.leaf 14304559458599766556) (.leaf 16164682492135383417)) (.node (.leaf 9074593062769756151) (.leaf 7910297737477072905))) (.node (.node (.leaf 11812978403454271631) (.leaf 2818731876230752114)) (.node (.leaf 6166223888201678421) (.leaf 17565512066764411933))))) (.node (.node (.node (.node (.leaf 18346938670766100714) (.leaf 13301561078271740355)) (.node (.leaf 2665253902915054780) (.leaf 12859838323037933964))) (.node (.node (.leaf 12718878446175006684) (.leaf 5662975514262233949)) (.node (.leaf 4769840817463531159) (.leaf 17078596831889854294)))) (.node (.node (.node (.leaf 13386030761340703411) (.leaf 14207665349820806965)) (.node (.leaf 5277819735256581638) (.leaf 14503632500739126635))) (.node (.node (.leaf 2550534713531740209) (.leaf 2765023229233922595)) (.node (.leaf 8369801255352985288) (.leaf 11353771791959340272)))))) (.node (.node (.node (.node (.node (.leaf 11980388629358714011) (.leaf 7039953558860892352)) (.node (.leaf 9130310351891332235) (.leaf 9639437249466564574))) (.node (.node (.leaf 18054512119715712019) (.leaf 2252019217125311093)) (.node (.leaf 2430466968118809511) (.leaf 18197194662334851128)))) (.node (.node (.node (.leaf 13517485701540640661) (.leaf 2139341065939798874)) (.node (.leaf 2453409267711571275) (.leaf 7509349641926626484))) (.node (.node (.leaf 6073156402618412923) (.leaf 11186166671167936859)) (.node (.leaf 372793768394942856) (.leaf 487154349992886089))))) (.node (.node (.node (.node (.leaf 11910973411352828961) (.leaf 2958038859161112250)) (.node (.leaf 890558175930324841) (.leaf 13021801898833065900))) (.node (.node (.leaf 9546216079351781947) (.leaf 4875254901500551777)) (.node (.leaf 3745121913190833571) (.leaf 10588844858154579134)))) (.node (.node (.node (.leaf 10135148689657344491) (.leaf 3468862185334819703)) (.node (.leaf 16900543212580330173) (.leaf 6593118410812757152))) (.node (.node (.leaf 5240185994174690059) (.leaf 14756215359671295596)) (.node (.leaf 10626452745789801233) (.leaf 7652887065478371278)))))))))
noncomputable def g7_2 : Tree := (.node (.node (.node (.node (.node (.node (.node (.node (.leaf 4767792600286760872) (.leaf 2445532213411551205)) (.node (.leaf 17693136376344674959) (.leaf 12603713707926207596))) (.node (.node (.leaf 14095351517350022633) (.leaf 14717703145540163704)) (.node (.leaf 11465590114764540416) (.leaf 10562922427957037035)))) (.node (.node (.node (.leaf 3007369807671190306) (.leaf 16464596796495142422)) (.node (.leaf 14631767549244762061) (.leaf 15369742838114746547))) (.node (.node (.leaf 16637919507896589007) (.leaf 11270773178123552764)) (.node (.leaf 5264797655607244282) (.leaf 7029460534721813658))))) (.node (.node (.node (.node (.leaf 4689051099560454467) (.leaf 939437284841914187)) (.node (.leaf 15761458357698936362) (.leaf 16004074980194759828))) (.node (.node (.leaf 15472120507961413373) (.leaf 13145682964511452697)) (.node (.leaf 12792670641806358791) (.leaf 8971297823763596168)))) (.node (.node (.node (.leaf 10422109013502181199) (.leaf 14314030914184457700)) (.node (.leaf 6049766093028999494) (.leaf 8217424822479389552))) (.node (.node (.leaf 5949198881608523257) (.leaf 8708494963015895931)) (.node (.leaf 8011652114822690955) (.leaf 13218325449911744676)))))) (.node (.node (.node (.node (.node (.leaf 5221525729004433782) (.leaf 7663452139696011109)) (.node (.leaf 10366575623353174057) (.leaf 5184845036312968543))) (.node (.node (.leaf 5087731133126970392) (.leaf 2496163666811069836)) (.node (.leaf 3916084441432218546) (.leaf 3604394415329629393)))) (.node (.node (.node (.leaf 7428380456298327946) (.leaf 1113538827708052797)) (.node (.leaf 8868959662547270752) (.leaf 6088770984741263319))) (.node (.node (.leaf 13954613088435360192) (.leaf 2217997704672357550)) (.node (.leaf 2735846192861006229) (.leaf 1821894808582623842))))) (.node (.node (.node (.node (.leaf 10058466624757222208) (.leaf 7168554203692761713)) (.node (.leaf 15933528868559411269) (.leaf 4233960561795113733))) (.node (.node (.leaf 5611216301094263116) (.leaf 18078244555352360022)) (.node (.leaf 5033315092660758259) (.leaf 1328881391003797298)))) (.node (.node (.node (.leaf 12681176720619957469) (.leaf 4424400092331299546)) (.node (.leaf 8359865287178992270) (.leaf 4064313753355323966))) (.node (.node (.leaf 16682512510974036826) (.leaf 9731074753821623025)) (.node (.leaf 17761079018821355824) (.leaf 4660163787813602819))))))) (.node (.node (.node (.node (.node (.node (.leaf 12461787142243948382) (.leaf 156629877699178472)) (.node (.leaf 762013546056706445) (.leaf 1528574842902754239))) (.node (.node (.leaf 9298935446763615476) (.leaf 4524384247081565778)) (.node (.leaf 8507640795635971544) (.leaf 17468423698152194224)))) (.node (.node (.node (.leaf 2595912774852667064) (.leaf 3313982249679085322)) (.node (.leaf 1937042584856030299) (.leaf 9803636758012159904))) (.node (.node (.leaf 3867868271216897617) (.leaf 6281999403317386881)) (.node (.leaf 16806855296743395262) (.leaf 15039208345125654133))))) (.node (.node (.node (.node (.leaf 3045592635281821261) (.leaf 1614561135295357915)) (.node (.leaf 1728013472184593868) (.leaf 6903026619482182085))) (.node (.node (.leaf 7222028891385456297) (.leaf 9061649440567985492)) (.node (.leaf 8347106216892574636) (.leaf 16277998567644930316)))) (.node (.node (.node (.leaf 587533816642152551) (.leaf 13545063748872639947)) (.node (.leaf 5391248742982079895) (.leaf 15516913158745183354))) (.node (.node (.leaf 3578752428290693697) (.leaf 5462309158340600359)) (.node (.leaf 12216412001406537913) (.leaf 6962264043210578754)))))) (.node (.node (.node (.node (.node (.leaf 12301961647875500465) (.leaf 1436057060289110407)) (.node (.leaf 12863756737877090348) (.leaf 12723282700747120945))) (.node (.node (.leaf 16529712520277382894) (.leaf 12339383976273016597)) (.node (.leaf 2758159656370849023) (.leaf 14174453032648244840)))) (.node (.node (.node (.leaf 11807327911098586217) (.leaf 17643123442899315231)) (.node (.leaf 812297496626661021) (.leaf 9384573432245356160))) (.node (.node (.leaf 6774451107074402340) (.leaf 16330609025290223062)) (.node (.leaf 6515072439187368162) (.leaf 3197930003677136530))))) (.node (.node (.node (.node (.leaf 6447061084989522987) (.leaf 5567904297611547)) (.node (.leaf 9574707307445064193) (.leaf 9113846888295977545))) (.node (.node (.leaf 15789214417502377023) (.leaf 6663435909490290723)) (.node (.leaf 15685999581910598041) (.leaf 12172381906577834695)))) (.node (.node (.node (.leaf 11654894137954071164) (.leaf 11324745966318344631)) (.node (.leaf 8433115138958006782) (.leaf 14241255672964054786))) (.node (.node (.leaf 10701445455852751341) (.leaf 2049914837908300989)) (.node (.leaf 1946190637973987411) (.leaf 14830255604380498851)))))))) (.node (.node (.node (.node (.node (.node (.node (.leaf 15067871175588998770) (.leaf 10999598406870060078)) (.node (.leaf 2531411060521484500) (.leaf 17565543844098822395))) (.node (.node (.leaf 1743167298298147461) (.leaf 13710025653846569837)) (.node (.leaf 17173276566915530314) (.leaf 14910955870865541150)))) (.node (.node (.node (.leaf 10255420703494328009) (.leaf 11118060888559687136)) (.node (.leaf 13676749512794340695) (.leaf 10466451046292491221))) (.node (.node (.leaf 9481229533615262990) (.leaf 15189409664154720052)) (.node (.leaf 14593743089595429226) (.leaf 4117021593869081564))))) (.node (.node (.node (.node (.leaf 8725143949306770067) (.leaf 12059798324052366158)) (.node (.leaf 360154244664164783) (.leaf 11994639144800666579))) (.node (.node (.leaf 6355894388437756542) (.leaf 2325995343388080440)) (.node (.leaf 14929726302883210249) (.leaf 2910525813040143723)))) (.node (.node (.node (.leaf 8581384094936345623) (.leaf 18256603694206240671)) (.node (.leaf 10132291401363014122) (.leaf 11925101737029710494))) (.node (.node (.leaf 5671071946175083750) (.leaf 6600410434312449697)) (.node (.leaf 14516126873882932625) (.leaf 457537008444372816)))))) (.node (.node (.node (.node (.node (.leaf 13050460025622994374) (.leaf 5890926795400434070)) (.node (.leaf 11593209442216612844) (.leaf 13882146387770568641))) (.node (.node (.leaf 17235872891641619929) (.leaf 14405699247735925601)) (.node (.leaf 3163883981620395068) (.leaf 6757780019311896869)))) (.node (.node (.node (.leaf 12939020653913897543) (.leaf 18228036428004792644)) (.node (.leaf 17808594263745269832) (.leaf 18382142280749039798))) (.node (.node (.leaf 15870983907528047155) (.leaf 1169720436943750369)) (.node (.leaf 7740343326978400294) (.leaf 1496915686087565101))))) (.node (.node (.node (.node (.leaf 13268693171013194038) (.leaf 8202512496944264910)) (.node (.leaf 17870426537173276259) (.leaf 10800917869180809488))) (.node (.node (.leaf 16091648438809119986) (.leaf 16153191447490155512)) (.node (.leaf 2257931694870378103) (.leaf 8077263265372722553)))) (.node (.node (.node (.leaf 9676377145720293901) (.leaf 7621189776955045052)) (.node (.leaf 17352478276636712221) (.leaf 15249105608442650832))) (.node (.node (.leaf 1064090154253290507) (.leaf 13820066795484062403)) (.node (.leaf 567118566223295342) (.leaf 14471041644241237860))))))) (.node (.node (.node (.node (.node (.node (.leaf 3696887708373869958) (.leaf 16872808521955026151)) (.node (.leaf 7877929315261786312) (.leaf 11848967814282885464))) (.node (.node (.leaf 16396633436690856091) (.leaf 3485272251598489054)) (.node (.leaf 6147333560195476057) (.leaf 17976063400508796917)))) (.node (.node (.node (.leaf 7319826286162644959) (.leaf 9628797617807191440)) (.node (.leaf 12515620751508437232) (.leaf 5823735704301014428))) (.node (.node (.leaf 11445020386244718763) (.leaf 8801845792604692356)) (.node (.leaf 6244640906861460093) (.leaf 1265858800697754562))))) (.node (.node (.node (.node (.leaf 18102357463497306920) (.leaf 13600197788494734677)) (.node (.leaf 4550222763302037444) (.leaf 15578821032619623713))) (.node (.node (.leaf 16970148328004328402) (.leaf 4949092649647678261)) (.node (.leaf 17434197244364664250) (.leaf 16765529457524513335)))) (.node (.node (.node (.leaf 9250381107113164047) (.leaf 4840753980519947796)) (.node (.leaf 7131482611865065130) (.leaf 9896098419406496423))) (.node (.node (.leaf 15315538541113343113) (.leaf 9958906077310060015)) (.node (.leaf 2838061403854546803) (.leaf 11733960469072123508)))))) (.node (.node (.node (.node (.node (.leaf 7377010248341191526) (.leaf 17043365169949184006)) (.node (.leaf 13367086330864131234) (.leaf 3775110202520096759))) (.node (.node (.leaf 866728955528988765) (.leaf 10226259260743769092)) (.node (.leaf 9205248302306334779) (.leaf 13423630298080586370)))) (.node (.node (.node (.leaf 701067200742427060) (.leaf 4373620775621490307)) (.node (.leaf 5538086377934793599) (.leaf 7969785199979399853))) (.node (.node (.leaf 4030589489801176742) (.leaf 5711378057097765622)) (.node (.leaf 11194779170310470417) (.leaf 403100210125269962))))) (.node (.node (.node (.node (.leaf 266861278316444463) (.leaf 14019285000277138490)) (.node (.leaf 11047037806063308050) (.leaf 2158220848154113555))) (.node (.node (.leaf 12974740269778776175) (.leaf 3409271296872276451)) (.node (.leaf 3385276212595620283) (.leaf 10896265211906843680)))) (.node (.node (.node (.leaf 143698794794119176) (.leaf 7791400455427328165)) (.node (.leaf 18333319058836242357) (.leaf 10825227714884475420))) (.node (.node (.leaf 17129282320517226297) (.leaf 10592922357858359388)) (.node (.leaf 7544070055150539672) (.leaf 4316349316357840410)))))))))
noncomputable def g7_3 : Tree := (.node (.node (.node (.node (.node (.node (.node (.node (.leaf 13154555905097589451) (.leaf 5718484864004665545)) (.node (.leaf 244716005714474589) (.leaf 5428377550965854872))) (.node (.node (.leaf 9405909222850544515) (.leaf 10693886737100688493)) (.node (.leaf 859269433637982787) (.leaf 4538244872618586023)))) (.node (.node (.node (.leaf 16424817523169968265) (.leaf 7519777212415036263)) (.node (.leaf 477914950085604894) (.leaf 1460832449233546770))) (.node (.node (.leaf 13103617680647165722) (.leaf 937450702210053204)) (.node (.leaf 6842203355819848409) (.leaf 7011005699249514431))))) (.node (.node (.node (.node (.leaf 6736656351901318598) (.leaf 11678594020073239866)) (.node (.leaf 6683495592342310301) (.leaf 11903575101799371271))) (.node (.node (.leaf 7244579572889506753) (.leaf 2324287309459243509)) (.node (.leaf 7692939192241777763) (.leaf 9364703897561268850)))) (.node (.node (.node (.leaf 12585892233758933795) (.leaf 8944060709455835379)) (.node (.leaf 10654836697948774199) (.leaf 15887581166223654145))) (.node (.node (.leaf 10958479003000103964) (.leaf 3281751573949168580)) (.node (.leaf 7882531429013810090) (.leaf 17860998109750669108)))))) (.node (.node (.node (.node (.node (.leaf 4106517011620320395) (.leaf 4771102952897665283)) (.node (.leaf 12400664117506035362) (.leaf 11829501137933056141))) (.node (.node (.leaf 15091021888512385154) (.leaf 9739117934527826309)) (.node (.leaf 3665414852896632300) (.leaf 4902018009235174307)))) (.node (.node (.node (.leaf 8611656758497425603) (.leaf 6968978774374751598)) (.node (.leaf 15820082574773712549) (.leaf 7730695159365518609))) (.node (.node (.leaf 17465265374822179630) (.leaf 16092443408525555959)) (.node (.leaf 16255366221206422950) (.leaf 6414477838907484508))))) (.node (.node (.node (.node (.leaf 8360361807872234568) (.leaf 2612743260811967575)) (.node (.leaf 10829545329065241544) (.leaf 8097400728741828618))) (.node (.node (.leaf 3553405394661220023) (.leaf 7825159939259866866)) (.node (.leaf 16159081867374459598) (.leaf 346671230320035021)))) (.node (.node (.node (.leaf 12313385726984985004) (.leaf 3824456865793161589)) (.node (.leaf 10278026049547638281) (.leaf 16041947441707132180))) (.node (.node (.leaf 10105281660209946230) (.leaf 4127863013739724386)) (.node (.leaf 9633882832346584000) (.leaf 8013450805299499151))))))) (.node (.node (.node (.node (.node (.node (.leaf 6578630855840085833) (.leaf 1574213971119727569)) (.node (.leaf 13187528529618108486) (.leaf 13690634247906650550))) (.node (.node (.leaf 5069431808412411467) (.leaf 7088904862701123365)) (.node (.leaf 12955423540425381561) (.leaf 2244068702589318059)))) (.node (.node (.node (.leaf 14319904409998975379) (.leaf 16645575068122112375)) (.node (.leaf 2907536312034662362) (.leaf 2049875323379171312))) (.node (.node (.leaf 11975124428532703835) (.leaf 927968906370144168)) (.node (.leaf 15292687999310127153) (.leaf 5361099541704540424))))) (.node (.node (.node (.node (.leaf 3757510423143135061) (.leaf 1216767033902691192)) (.node (.leaf 9901799995586644638) (.leaf 10914180701428505922))) (.node (.node (.leaf 10784852001655583789) (.leaf 14502960555101469070)) (.node (.leaf 39757290623920940) (.leaf 13583180972001412308)))) (.node (.node (.node (.leaf 6304772156700020405) (.leaf 564648724951099763)) (.node (.leaf 11438186875849162509) (.leaf 608871989807332393))) (.node (.node (.leaf 2724073889578801177) (.leaf 4462560277306179953)) (.node (.leaf 4551444402607659772) (.leaf 4696098489359861725)))))) (.node (.node (.node (.node (.node (.leaf 11343773865020740458) (.leaf 14088565568594859866)) (.node (.leaf 4861637611105035774) (.leaf 14614979430578724902))) (.node (.node (.leaf 2591892811889675304) (.leaf 16771060800820784420)) (.node (.leaf 14413293749735901916) (.leaf 14262710880300954233)))) (.node (.node (.node (.leaf 12390827790166517013) (.leaf 17296242487104329296)) (.node (.leaf 1773399554303212342) (.leaf 3151793154637734923))) (.node (.node (.leaf 15429805285429664753) (.leaf 17959119595182638930)) (.node (.leaf 4388573346896757477) (.leaf 6853313975344166191))))) (.node (.node (.node (.node (.leaf 13375445114433022479) (.leaf 1969272647380115335)) (.node (.leaf 18119513221821690050) (.leaf 17290010641321372484))) (.node (.node (.leaf 12856853871125683133) (.leaf 6251874313915163935)) (.node (.leaf 10444895410914666472) (.leaf 5029151719062122027)))) (.node (.node (.node (.leaf 8342854317230742742) (.leaf 1611734596474932575)) (.node (.leaf 8896788486620894416) (.leaf 13536161608186663941))) (.node (.node (.leaf 3961753184019874041) (.leaf 2820307113247734015)) (.node (.leaf 9177543497633102395) (.leaf 9044832011123545583)))))))) (.node (.node (.node (.node (.node (.node (.node (.leaf 155258709085290365) (.leaf 15660779996310822290)) (.node (.leaf 420165336144497985) (.leaf 11268955205340215957))) (.node (.node (.leaf 17741058743919079306) (.leaf 5243859413007721293)) (.node (.leaf 5789622303000435279) (.leaf 17550969864667438982)))) (.node (.node (.node (.leaf 16931724077167093458) (.leaf 3445408086103426572)) (.node (.leaf 15275999941618512946) (.leaf 1814715512739597088))) (.node (.node (.leaf 3363472546679318550) (.leaf 11119009692571219507)) (.node (.leaf 12508478518639356571) (.leaf 5511244538355632118))))) (.node (.node (.node (.node (.leaf 16354674673134563039) (.leaf 14026649734924789892)) (.node (.leaf 5636564160998443847) (.leaf 8734825546600421601))) (.node (.node (.leaf 15975120462918799588) (.leaf 13911943309103236156)) (.node (.leaf 17009065951406346665) (.leaf 13800009439682672094)))) (.node (.node (.node (.leaf 17718828695491441738) (.leaf 18239206075883191056)) (.node (.leaf 3474466376739060129) (.leaf 18406206722063527062))) (.node (.node (.leaf 10372087682783635307) (.leaf 1052348816741976732)) (.node (.leaf 18229481980714291300) (.leaf 8647473737286878196)))))) (.node (.node (.node (.node (.node (.leaf 9136877855689969185) (.leaf 15547637490039999541)) (.node (.leaf 14919978010268051899) (.leaf 5958248210448432617))) (.node (.node (.leaf 12223957295635763995) (.leaf 2785155295701973632)) (.node (.leaf 1400896780866973072) (.leaf 6025472365976619495)))) (.node (.node (.node (.leaf 17083790660462062704) (.leaf 16953408511534894822)) (.node (.leaf 14143274073156561004) (.leaf 17910747312195994214))) (.node (.node (.leaf 6524071124880514764) (.leaf 3182945367524024787)) (.node (.leaf 12798544368470758815) (.leaf 7614707747110768930))))) (.node (.node (.node (.node (.leaf 4221295224439251890) (.leaf 9809625837051358842)) (.node (.leaf 5123658087933263511) (.leaf 12738679866908379882))) (.node (.node (.leaf 13019500591859765658) (.leaf 13420718003171135943)) (.node (.leaf 12113860122883334760) (.leaf 14634184267135589433)))) (.node (.node (.node (.leaf 8464939364291373697) (.leaf 18065490815657721579)) (.node (.leaf 7163896562843090682) (.leaf 13890794589032712510))) (.node (.node (.leaf 6159281167137359331) (.leaf 17644114503577203296)) (.node (.leaf 138325728530440884) (.leaf 8568892257713878786))))))) (.node (.node (.node (.node (.node (.node (.leaf 15169899363391779279) (.leaf 10523562311377416005)) (.node (.leaf 7977151544143528710) (.leaf 1919953542134441096))) (.node (.node (.leaf 2219829003987443635) (.leaf 3729370202820495024)) (.node (.leaf 14714052599065634030) (.leaf 1299951190989754252)))) (.node (.node (.node (.leaf 15750407842269713761) (.leaf 2963471084732006780)) (.node (.leaf 13742717192299332270) (.leaf 16584119320856245115))) (.node (.node (.leaf 8201573593107860920) (.leaf 9552359458716190809)) (.node (.leaf 4311487051807074921) (.leaf 18363327911387306304))))) (.node (.node (.node (.node (.leaf 16476962045867239448) (.leaf 9275505532942162865)) (.node (.leaf 15376030045255843220) (.leaf 10005774985449162968))) (.node (.node (.leaf 10059902568702547485) (.leaf 16825043454008598589)) (.node (.leaf 16542664320798736440) (.leaf 17199369279154098173)))) (.node (.node (.node (.leaf 14875735542754606094) (.leaf 5303413573470286293)) (.node (.leaf 1246732657405945541) (.leaf 9688374660154720078))) (.node (.node (.leaf 11536317923683704237) (.leaf 11801981027062007547)) (.node (.leaf 4027412696058107224) (.leaf 11461420171943350999)))))) (.node (.node (.node (.node (.node (.leaf 7486887082540634154) (.leaf 3039197453375404463)) (.node (.leaf 7379054178765228886) (.leaf 11631028737590764002))) (.node (.node (.leaf 12041697689094468190) (.leaf 6057432636743984793)) (.node (.leaf 1098395960559776190) (.leaf 8233513205748958759)))) (.node (.node (.node (.leaf 17425401249930950004) (.leaf 2113006938998869764)) (.node (.leaf 8843772700827321648) (.leaf 15611609397880229088))) (.node (.node (.leaf 14345815296443243194) (.leaf 15039985026019151835)) (.node (.leaf 7331778783580232650) (.leaf 11074801959558710398))))) (.node (.node (.node (.node (.leaf 5839281906540588192) (.leaf 2381709191379934456)) (.node (.leaf 2472255015584766976) (.leaf 9462426607776526500))) (.node (.node (.leaf 13294849567185301861) (.leaf 10462825643657480511)) (.node (.leaf 787344624202245969) (.leaf 11207140628135246615)))) (.node (.node (.node (.leaf 5614073352675323219) (.leaf 4657745030686873788)) (.node (.leaf 1722892868275001837) (.leaf 6354045469113550959))) (.node (.node (.leaf 712536955081316883) (.leaf 10184792455632583756)) (.node (.leaf 12627202269325330303) (.leaf 14812952497343580305)))))))))
noncomputable def g7 : G := ⟨g7_0, g7_1, g7_2, g7_3, ⟨11261202907338099814, 2685708279978320720, 12461757105059216494⟩⟩

noncomputable def g8_0 : Tree := (.node (.node (.node (.node (.node (.node (.node (.node (.leaf 7326532424892285985) (.leaf 12159855893222102036)) (.node (.leaf 10198841157949557096) (.leaf 6061613627218176270))) (.node (.node (.leaf 10034469895531842022) (.leaf 5196050721491491283)) (.node (.leaf 3196591423441596166) (.leaf 15807337920319094878)))) (.node (.node (.node (.leaf 14387997857553425936) (.leaf 1945315392424106782)) (.node (.leaf 16297331257732145177) (.leaf 140866034843900630))) (.node (.node (.leaf 6287227804192739808) (.leaf 9224083789815228187)) (.node (.leaf 6673168892221318709) (.leaf 16629774602666643687))))) (.node (.node (.node (.node (.leaf 4184023465808640266) (.leaf 6507295407103510241)) (.node (.leaf 1854343115702675766) (.leaf 14490631294993369629))) (.node (.node (.leaf 4794319252911175497) (.leaf 7466265068164133453)) (.node (.leaf 2683305533378369739) (.leaf 17853230185545170420)))) (.node (.node (.node (.leaf 423723820313746507) (.leaf 12715007905332415304)) (.node (.leaf 14747690697467226714) (.leaf 18341487068636348326))) (.node (.node (.leaf 11499494656038957605) (.leaf 245098212884668061)) (.node (.leaf 4432877382232738024) (.leaf 7757550229044676206)))))) (.node (.node (.node (.node (.node (.leaf 10152447001113876131) (.leaf 5501678166761674217)) (.node (.leaf 15708896836650894472) (.leaf 3409070857729342377))) (.node (.node (.leaf 14575742676778841145) (.leaf 8441246677627875556)) (.node (.leaf 17505792441137045124) (.leaf 8584918876128998286)))) (.node (.node (.node (.leaf 7085197915812618714) (.leaf 8340482311151514494)) (.node (.leaf 3894670079429020165) (.leaf 5317086333501428303))) (.node (.node (.leaf 1676199866013816513) (.leaf 5086001035221841508)) (.node (.leaf 2908738048226443196) (.leaf 4072314471672740056))))) (.node (.node (.node (.node (.leaf 7515704369156956431) (.leaf 13602198100667911290)) (.node (.leaf 1051572500349108777) (.leaf 13346759815841002943))) (.node (.node (.leaf 2875898862247430601) (.leaf 3058096109473903602)) (.node (.leaf 11537074650278482211) (.leaf 7835657077980150523)))) (.node (.node (.node (.leaf 14804851450917141784) (.leaf 13458354765791079595)) (.node (.leaf 9805489028541732890) (.leaf 18061404061767715939))) (.node (.node (.leaf 1584779892135437661) (.leaf 17020134457381777042)) (.node (.leaf 14289975120153371865) (.leaf 2224842651905179824))))))) (.node (.node (.node (.node (.node (.node (.leaf 17721916965254688884) (.leaf 16924248187124655753)) (.node (.leaf 5414590215684367341) (.leaf 1347646651132240092))) (.node (.node (.leaf 18299885628904149154) (.leaf 7598310512419814961)) (.node (.leaf 17646616428956417910) (.leaf 16022396834710731175)))) (.node (.node (.node (.leaf 15068557815205684594) (.leaf 17137705264715739692)) (.node (.leaf 6823743916960413418) (.leaf 4566405566319693650))) (.node (.node (.leaf 2274493910532877757) (.leaf 16468310639392114687)) (.node (.leaf 10989554082004457103) (.leaf 9725561965704924994))))) (.node (.node (.node (.node (.leaf 827970831958173788) (.leaf 5024362971390919611)) (.node (.leaf 10662688599647863491) (.leaf 8084117403693740668))) (.node (.node (.leaf 5177162444691475464) (.leaf 12094307255958118434)) (.node (.leaf 3702405865082431574) (.leaf 14482426506952612479)))) (.node (.node (.node (.leaf 17750654277974099947) (.leaf 4480246835135820152)) (.node (.leaf 14265000425585816563) (.leaf 9321305612370964816))) (.node (.node (.leaf 1598774172698959252) (.leaf 18382253698256612481)) (.node (.leaf 291957615572095694) (.leaf 3582549377111798880)))))) (.node (.node (.node (.node (.node (.leaf 13790640682567231365) (.leaf 7001674258675127793)) (.node (.leaf 10520506979947684471) (.leaf 11934332080110086128))) (.node (.node (.leaf 4312746861506198599) (.leaf 10918500932514367274)) (.node (.leaf 12338850239730519308) (.leaf 15578699333965556470)))) (.node (.node (.node (.leaf 2431554649541902520) (.leaf 8560729848510922351)) (.node (.leaf 11740724169101941591) (.leaf 8019055160711537589))) (.node (.node (.leaf 6984326448459043729) (.leaf 8719851572762696039)) (.node (.leaf 961490141380432558) (.leaf 16726940500697024677))))) (.node (.node (.node (.node (.leaf 10416506194988598092) (.leaf 1998658844964107403)) (.node (.leaf 16199113007670368105) (.leaf 13983378090857470124))) (.node (.node (.leaf 4392618193206113850) (.leaf 2549039398117523950)) (.node (.leaf 8982169464291097032) (.leaf 6141701661259168908)))) (.node (.node (.node (.leaf 17348517636816391888) (.leaf 12609470912986593133)) (.node (.leaf 9741574666126715267) (.leaf 13852521520077663458))) (.node (.node (.leaf 9129191235632798613) (.leaf 4850996927462826647)) (.node (.leaf 16948290332436316320) (.leaf 13270128200213740553)))))))) (.node (.node (.node (.node (.node (.node (.node (.leaf 15037790011253394901) (.leaf 13533513803644153651)) (.node (.leaf 17516693585895875021) (.leaf 8198343513289500001))) (.node (.node (.leaf 9646173164258495738) (.leaf 11426303304223750228)) (.node (.leaf 3317502851708674) (.leaf 3613903074906030926)))) (.node (.node (.node (.leaf 9543535246419975296) (.leaf 5953932181662777691)) (.node (.leaf 16359916201623401774) (.leaf 13732813428757800140))) (.node (.node (.leaf 7262028818171522974) (.leaf 5869258954437578119)) (.node (.leaf 1159275826382624811) (.leaf 16243482656266638263))))) (.node (.node (.node (.node (.leaf 16688829340845082348) (.leaf 12625348633655637075)) (.node (.leaf 11041325810301768621) (.leaf 2772492561794051831))) (.node (.node (.leaf 8260328983597535028) (.leaf 1495709795638021853)) (.node (.leaf 9497044215068674202) (.leaf 643452239029237130)))) (.node (.node (.node (.leaf 15427286030426621151) (.leaf 12509065292416796346)) (.node (.leaf 1143189799004495473) (.leaf 17251147817100505119))) (.node (.node (.leaf 3128306827666981322) (.leaf 11746987717535005127)) (.node (.leaf 9985407476476942609) (.leaf 12399058163213065464)))))) (.node (.node (.node (.node (.node (.leaf 15325662249610361028) (.leaf 2049101010685582747)) (.node (.leaf 17922169879103309623) (.leaf 11136346860779820836))) (.node (.node (.leaf 15918176903948730110) (.leaf 8670968233246540902)) (.node (.leaf 905087770197618224) (.leaf 17429827045128872293)))) (.node (.node (.node (.leaf 468387256074720525) (.leaf 2654438382244561208)) (.node (.leaf 6411698275991985260) (.leaf 13043779739719052632))) (.node (.node (.leaf 10742061875988546819) (.leaf 15504874717757789381)) (.node (.leaf 3520166058820161832) (.leaf 3811904361252814381))))) (.node (.node (.node (.node (.leaf 13638400361568130293) (.leaf 16819779657758080435)) (.node (.leaf 1791169944501451286) (.leaf 12890025234479344465))) (.node (.node (.leaf 12243694912110138407) (.leaf 14191523212320291745)) (.node (.leaf 11192754607713167569) (.leaf 6730364931507151620)))) (.node (.node (.node (.leaf 6603907312135490066) (.leaf 17183349851894715951)) (.node (.leaf 9874434169938091732) (.leaf 8884479863612874718))) (.node (.node (.leaf 3868212412790407887) (.leaf 3262914315564290835)) (.node (.leaf 17987747499136953153) (.leaf 18191987092621673884))))))) (.node (.node (.node (.node (.node (.node (.leaf 705897468475272128) (.leaf 10341920296438331197)) (.node (.leaf 15215755168983869587) (.leaf 11351314571180145558))) (.node (.node (.leaf 10483493548586549186) (.leaf 9171247769212085589)) (.node (.leaf 6438000997995565057) (.leaf 5594347692283287929)))) (.node (.node (.node (.leaf 4730104211748411318) (.leaf 18088737837091131099)) (.node (.leaf 11982720243190648317) (.leaf 5705637825468839492))) (.node (.node (.leaf 6885302706518922534) (.leaf 2124488392576410242)) (.node (.leaf 11888555458796018176) (.leaf 13237219269374904640))))) (.node (.node (.node (.node (.leaf 5990141979151805821) (.leaf 5341335623328621173)) (.node (.leaf 14950353314143017647) (.leaf 9397489897632909965))) (.node (.node (.leaf 15993169665442670203) (.leaf 14632521613820504746)) (.node (.leaf 1425821428226716949) (.leaf 15175012740797190383)))) (.node (.node (.node (.leaf 4173882324553597555) (.leaf 10712911019007110512)) (.node (.leaf 10824326522968876039) (.leaf 14894893457945322723))) (.node (.node (.leaf 11271800817316592280) (.leaf 7905653800461766489)) (.node (.leaf 12777148130901474364) (.leaf 7383841643486141291)))))) (.node (.node (.node (.node (.node (.leaf 15363270313156033854) (.leaf 12251618820217898303)) (.node (.leaf 5793088096868606900) (.leaf 3359153199665092542))) (.node (.node (.leaf 5648821011581614736) (.leaf 736573581513121695)) (.node (.leaf 10238136634049072121) (.leaf 1284762822362661727)))) (.node (.node (.node (.leaf 3982371294804422585) (.leaf 16096715242605629034)) (.node (.leaf 12939170179650329990) (.leaf 7193252291348127772))) (.node (.node (.leaf 7659015191644761147) (.leaf 11653404043084818391)) (.node (.leaf 148487690468364867) (.leaf 4931089390693806347))))) (.node (.node (.node (.node (.leaf 12989112344252194080) (.leaf 6214828885152767921)) (.node (.leaf 8423948156688303538) (.leaf 540368871204270309))) (.node (.node (.leaf 13954785180925386566) (.leaf 2989990997519118661)) (.node (.leaf 15698488250258854297) (.leaf 13173868751753260567)))) (.node (.node (.node (.leaf 16567360296223845318) (.leaf 2364378788314495842)) (.node (.leaf 9009202615811820362) (.leaf 2486345539830823164))) (.node (.node (.leaf 8801801858420828626) (.leaf 7985382581271882404)) (.node (.leaf 14059588530440506280) (.leaf 4655847440902735922)))))))))
noncomputable def g8_1 : Tree := (.node (.node (.node (.node (.node (.node (.node (.node (.leaf 11377577508698864379) (.leaf 5027920678029713658)) (.node (.leaf 1476203897407095711) (.leaf 16814177560041205490))) (.node (.node (.leaf 15351220967467881831) (.leaf 4343540106068047280)) (.node (.leaf 8103864674603743313) (.leaf 12718594597854667510)))) (.node (.node (.node (.leaf 4731894067392501764) (.leaf 6031319946198907997)) (.node (.leaf 17101312511539616145) (.leaf 17617322895506048961))) (.node (.node (.leaf 5884170390221933953) (.leaf 9146037266622823748)) (.node (.leaf 17766501232107607832) (.leaf 9636456052652964111))))) (.node (.node (.node (.node (.leaf 7272858199771290797) (.leaf 313824799063239026)) (.node (.leaf 7394816600797820707) (.leaf 14128308875002935735))) (.node (.node (.leaf 14837885683525682695) (.leaf 9322854244189652301)) (.node (.leaf 690458986486054596) (.leaf 16417061171823253247)))) (.node (.node (.node (.leaf 2188228428082175318) (.leaf 6881725951919256158)) (.node (.leaf 14848023560202561481) (.leaf 10237701388414629621))) (.node (.node (.leaf 15047432762920095685) (.leaf 7278937423395495502)) (.node (.leaf 11864426091964935471) (.leaf 3200581844075098706)))))) (.node (.node (.node (.node (.node (.leaf 11684882376881364536) (.leaf 5559259647209733542)) (.node (.leaf 16480513872643997618) (.leaf 3274461525335358537))) (.node (.node (.leaf 17351122532379500654) (.leaf 12126852073843270405)) (.node (.leaf 11450836518098915792) (.leaf 11529267683676976177)))) (.node (.node (.node (.leaf 3610580862741298715) (.leaf 12998477342489162063)) (.node (.leaf 5093334647932798222) (.leaf 11065657174577527272))) (.node (.node (.leaf 8636527428621135853) (.leaf 7134311106678499486)) (.node (.leaf 12040366483446408409) (.leaf 8710854744911628024))))) (.node (.node (.node (.node (.leaf 6929582080204867718) (.leaf 7721514284897501000)) (.node (.leaf 1577582003316055852) (.leaf 8182582801294291403))) (.node (.node (.leaf 999123572339281197) (.leaf 6718006263914537728)) (.node (.leaf 12959485595995156605) (.leaf 6692330247395539910)))) (.node (.node (.node (.leaf 15509577077811411567) (.leaf 2391242377214481643)) (.node (.leaf 4542731087189317662) (.leaf 4121554272048859581))) (.node (.node (.leaf 13563070739971001433) (.leaf 21097898354289813)) (.node (.leaf 6507675032447911007) (.leaf 16689593759927808104))))))) (.node (.node (.node (.node (.node (.node (.leaf 10218275707851822640) (.leaf 9953785164029485203)) (.node (.leaf 559209995813448605) (.leaf 1370687421451971063))) (.node (.node (.leaf 17167698720949260932) (.leaf 8330414994146271678)) (.node (.leaf 10815856673338260662) (.leaf 14052476673191043755)))) (.node (.node (.node (.leaf 15264755243986843220) (.leaf 14940964414648137552)) (.node (.leaf 4934030372062333274) (.leaf 5728305660286919047))) (.node (.node (.leaf 458673921809054300) (.leaf 18125025047263773280)) (.node (.leaf 9679351126229458233) (.leaf 8883697812564736231))))) (.node (.node (.node (.node (.leaf 2061562649469216741) (.leaf 15628278955909867128)) (.node (.leaf 11501688568530201775) (.leaf 12474163930802902613))) (.node (.node (.leaf 8530952915819103283) (.leaf 1311515888418100217)) (.node (.leaf 18282359737522522404) (.leaf 3348536660100632971)))) (.node (.node (.node (.leaf 15934194924712187179) (.leaf 13225394072415941758)) (.node (.leaf 6262056745344995805) (.leaf 11606941452798227109))) (.node (.node (.leaf 17058626661539490814) (.leaf 5186987480604662250)) (.node (.leaf 3395842570974376825) (.leaf 12545054146915831562)))))) (.node (.node (.node (.node (.node (.leaf 8850855437075533811) (.leaf 12307369488041085090)) (.node (.leaf 3152533006161892157) (.leaf 5941771587070254016))) (.node (.node (.leaf 12423230867414384105) (.leaf 4514042588806006494)) (.node (.leaf 14250467029839272757) (.leaf 8037945786934626098)))) (.node (.node (.node (.leaf 16725431717129534641) (.leaf 15307957898262912949)) (.node (.leaf 7932300024887933112) (.leaf 16560065065300210824))) (.node (.node (.leaf 2727496966365547286) (.leaf 11129223114941936022)) (.node (.leaf 2119452098988108682) (.leaf 17494077182315124778))))) (.node (.node (.node (.node (.leaf 1619983928069655999) (.leaf 7585191696415338111)) (.node (.leaf 17925939033732986567) (.leaf 10895608885322632911))) (.node (.node (.leaf 13672537931016376288) (.leaf 16010014592484490222)) (.node (.leaf 3058864145196314577) (.leaf 1821277337196236864)))) (.node (.node (.node (.leaf 16271762402800579513) (.leaf 10972313147925210732)) (.node (.leaf 4301441094955031138) (.leaf 17522532845201220708))) (.node (.node (.leaf 15708419912318250565) (.leaf 4637016727859727575)) (.node (.leaf 11251256274669620204) (.leaf 199296601751200083)))))))) (.node (.node (.node (.node (.node (.node (.node (.leaf 725665460960442369) (.leaf 5374524146221477997)) (.node (.leaf 3788741369240032752) (.leaf 8770950581376690205))) (.node (.node (.leaf 15064783053680133094) (.leaf 5813048618833990930)) (.node (.leaf 13425987009714225298) (.leaf 100971339273676176)))) (.node (.node (.node (.leaf 14554824119552352838) (.leaf 10063768280251164577)) (.node (.leaf 16347669289866656653) (.leaf 2775138666840115464))) (.node (.node (.leaf 5503468691455475695) (.leaf 6991952371826844022)) (.node (.leaf 4078312524954178292) (.leaf 6277515738114338114))))) (.node (.node (.node (.node (.leaf 16137706128805989392) (.leaf 9274116701484826508)) (.node (.leaf 9822512794666270988) (.leaf 12380309247745748245))) (.node (.node (.leaf 10422501536761476745) (.leaf 13764862348011062427)) (.node (.leaf 9189014766998640556) (.leaf 2356029535566591396)))) (.node (.node (.node (.leaf 2908441017408056536) (.leaf 9075093122688128899)) (.node (.leaf 17390261306020054953) (.leaf 14282605747021906289))) (.node (.node (.leaf 10772287892011248190) (.leaf 15727027438054450990)) (.node (.leaf 5464619573778706606) (.leaf 6572930503328131452)))))) (.node (.node (.node (.node (.node (.leaf 15142678672735014611) (.leaf 3021944090886413454)) (.node (.leaf 14684750757377708034) (.leaf 1916449758961420834))) (.node (.node (.leaf 10336946961043258889) (.leaf 7694509125085227084)) (.node (.leaf 10494372722235691071) (.leaf 6840953669492520231)))) (.node (.node (.node (.leaf 7488110934582404679) (.leaf 638459737480206772)) (.node (.leaf 13743039288006563003) (.leaf 14727390163061900186))) (.node (.node (.leaf 3961154896225517687) (.leaf 14625001685230502403)) (.node (.leaf 16955468213406057174) (.leaf 18010688363267111906))))) (.node (.node (.node (.node (.leaf 13964833479225376928) (.leaf 17722738307275672426)) (.node (.leaf 18433890549597665265) (.leaf 15799293879360930923))) (.node (.node (.leaf 9394244226989144650) (.leaf 2823865461703868959)) (.node (.leaf 9894952720112754776) (.leaf 16147273542480052708)))) (.node (.node (.node (.leaf 1232437903514234593) (.leaf 7559473741641337000)) (.node (.leaf 4882306174837377576) (.leaf 17278552211651564070))) (.node (.node (.leaf 9743783035930767868) (.leaf 13983514242639487950)) (.node (.leaf 13082271756074140074) (.leaf 13181146999459999034))))))) (.node (.node (.node (.node (.node (.node (.leaf 4433345687421732645) (.leaf 4015613466542923379)) (.node (.leaf 3821048710391271747) (.leaf 9478861524081417628))) (.node (.node (.leaf 279637078686439956) (.leaf 14448863056097732709)) (.node (.leaf 10713402905703526964) (.leaf 3488918293092940097)))) (.node (.node (.node (.leaf 1111827300053914652) (.leaf 1707068306737063228)) (.node (.leaf 837689664216046433) (.leaf 13331179681749460090))) (.node (.node (.leaf 11793275782149750927) (.leaf 10590889538492377562)) (.node (.leaf 6166223888204234388) (.leaf 14393290260526074470))))) (.node (.node (.node (.node (.leaf 18348346045649675730) (.leaf 401718702801325622)) (.node (.leaf 2665254572936441020) (.leaf 1948231457957827267))) (.node (.node (.leaf 1189663400105684956) (.leaf 8258013568910730519)) (.node (.leaf 4769840816902805143) (.leaf 1760142187768466970)))) (.node (.node (.node (.leaf 7925979164868747187) (.leaf 18199266272364098672)) (.node (.leaf 5277820392386530054) (.leaf 5629298720596073271))) (.node (.node (.leaf 2525764917225124649) (.leaf 7080590785140959949)) (.node (.leaf 8369800692467230408) (.leaf 15481358269255670871)))))) (.node (.node (.node (.node (.node (.leaf 12026550522270271641) (.leaf 8445875767184717268)) (.node (.leaf 17849279229088040411) (.leaf 13287661242575521226))) (.node (.node (.leaf 18031418879429037075) (.leaf 6411282482847516259)) (.node (.leaf 16611785424245740455) (.leaf 11185303008347482656)))) (.node (.node (.node (.leaf 13544507298835101663) (.leaf 3584165762248555892)) (.node (.leaf 2453409267703044427) (.leaf 4222070949117087930))) (.node (.node (.leaf 6073119119768924027) (.leaf 13866431842427101122)) (.node (.leaf 2246068012689843077) (.leaf 6482221067866904803))))) (.node (.node (.node (.node (.leaf 11910997599803333665) (.leaf 12640701673338391833)) (.node (.leaf 874795255111951465) (.leaf 12776355594236832469))) (.node (.node (.leaf 9546216006337337915) (.leaf 1057998760071170688)) (.node (.leaf 3693048683919906723) (.leaf 12201749988869316109)))) (.node (.node (.node (.leaf 10135307925569803394) (.leaf 12852002239231697661)) (.node (.leaf 16899643102953036492) (.leaf 7810899920786985880))) (.node (.node (.leaf 5251383523660296971) (.leaf 8948061325223537525)) (.node (.leaf 10626171270813090577) (.leaf 15898057174893747547)))))))))
noncomputable def g8_2 : Tree := (.node (.node (.node (.node (.node (.node (.node (.node (.leaf 4767678248582582184) (.leaf 12931383479106413531)) (.node (.leaf 17693136374348186332) (.leaf 11526238457361543943))) (.node (.node (.leaf 14095351040608652777) (.leaf 11429621740891185845)) (.node (.leaf 12558499424323848907) (.leaf 7063221545092110959)))) (.node (.node (.node (.leaf 3007369808724747140) (.leaf 2514303185618448443)) (.node (.leaf 14631634508337801165) (.leaf 10981765690560789045))) (.node (.node (.leaf 16637919511403029199) (.leaf 17231106292608573327)) (.node (.leaf 5264797279478838778) (.leaf 3345288723982159534))))) (.node (.node (.node (.node (.leaf 4689083717119161410) (.leaf 15046126778410601038)) (.node (.leaf 17967940700133768746) (.leaf 1197984001623370034))) (.node (.node (.leaf 15438343510766953725) (.leaf 3938391800875971278)) (.node (.leaf 8253105989091309882) (.leaf 2915815280269041244)))) (.node (.node (.node (.leaf 10421976401890580548) (.leaf 10833059925981431348)) (.node (.leaf 12103769354715087204) (.leaf 12785050432054148894))) (.node (.node (.leaf 17478416126314372601) (.leaf 931735767459017448)) (.node (.leaf 157374965995042836) (.leaf 3842429626329076305)))))) (.node (.node (.node (.node (.node (.leaf 5221525149183848822) (.leaf 3270090539239330714)) (.node (.leaf 10345223549537519657) (.leaf 11241264472953213955))) (.node (.node (.leaf 16184600615715834904) (.leaf 1052105930351290239)) (.node (.leaf 13139456478287003192) (.leaf 14617867742373774001)))) (.node (.node (.node (.leaf 8845888439013191562) (.leaf 2170546213049812646)) (.node (.leaf 8928278314865785952) (.leaf 13459713097639424899))) (.node (.node (.leaf 13957427840279499200) (.leaf 10899309494776242723)) (.node (.leaf 2735846008177389461) (.leaf 13078491032463282582))))) (.node (.node (.node (.node (.leaf 13510140714507750149) (.leaf 11145047052699681952)) (.node (.leaf 15957459869715028037) (.leaf 655712379284312128))) (.node (.node (.leaf 5611327553632131408) (.leaf 5697574211252411994)) (.node (.leaf 10211610239203681951) (.leaf 13576437511449507798)))) (.node (.node (.node (.leaf 12628065914151588712) (.leaf 2769461564322643716)) (.node (.leaf 8419537982250039950) (.leaf 5868256110691150379))) (.node (.node (.leaf 16682590949961763609) (.leaf 17770526800707504607)) (.node (.leaf 1422300764592900400) (.leaf 4313347123766011292))))))) (.node (.node (.node (.node (.node (.node (.leaf 6337077324751247198) (.leaf 8045073401218852240)) (.node (.leaf 762140469504174453) (.leaf 10554536780809818759))) (.node (.node (.leaf 18052160709627884789) (.leaf 105948721438268016)) (.node (.leaf 8561121041210996184) (.leaf 11335700730829508582)))) (.node (.node (.node (.leaf 2595912663183522232) (.leaf 18132437212376397873)) (.node (.leaf 1937042583235600286) (.leaf 4419345661438024732))) (.node (.node (.leaf 13235355496137764516) (.leaf 12416323447961028919)) (.node (.leaf 16806855296733106110) (.leaf 276874816200637911))))) (.node (.node (.node (.node (.leaf 3045592633369218579) (.leaf 16294654714512924178)) (.node (.leaf 2120633668415712716) (.leaf 963502761877386685))) (.node (.node (.leaf 7222028891385456307) (.leaf 9998495118886904047)) (.node (.leaf 8347105533988629456) (.leaf 17813811459670846706)))) (.node (.node (.node (.leaf 587570100521820519) (.leaf 10081853949805978624)) (.node (.leaf 5391248742982079895) (.leaf 4114255155563778086))) (.node (.node (.leaf 8118380853166692929) (.leaf 6214496516780549320)) (.node (.leaf 12242589174199622071) (.leaf 3674039962484983107)))))) (.node (.node (.node (.node (.node (.leaf 12301960741649787259) (.leaf 14871755832679447748)) (.node (.leaf 9621116629681813036) (.leaf 9933272917378222226))) (.node (.node (.leaf 1645315751817893614) (.leaf 3396809433577224826)) (.node (.leaf 9819803873963689215) (.leaf 6083161497731708290)))) (.node (.node (.node (.leaf 1129404391306433641) (.leaf 4036620726027445729)) (.node (.leaf 812297372072609437) (.leaf 12991044843773323549))) (.node (.node (.leaf 6774451738434529528) (.leaf 16504100448947572047)) (.node (.leaf 6515063286612060386) (.leaf 9522406916827999445))))) (.node (.node (.node (.node (.leaf 14035921126225052734) (.leaf 15554273745916411565)) (.node (.leaf 12024696291244741121) (.leaf 9343006171419500639))) (.node (.node (.leaf 15789192426778859071) (.leaf 17181555253312024483)) (.node (.leaf 15685999581911537561) (.leaf 18302037715094694533)))) (.node (.node (.node (.leaf 13888615781459895665) (.leaf 5941134539818579897)) (.node (.leaf 15566816948712872446) (.leaf 4380669205352939850))) (.node (.node (.leaf 10673578718331554285) (.leaf 15228723874641059011)) (.node (.leaf 1946190637974511698) (.leaf 14331154840503655244)))))))) (.node (.node (.node (.node (.node (.node (.node (.leaf 15067871177686150770) (.leaf 1462086977417661974)) (.node (.leaf 2537445180334719188) (.leaf 6874120763548403634))) (.node (.node (.leaf 1743167298298147527) (.leaf 10795210226416877459)) (.node (.leaf 11684795991360631201) (.leaf 14384376926817187355)))) (.node (.node (.node (.leaf 14218604868019899467) (.leaf 2374343751380575473)) (.node (.leaf 13688289986839498698) (.leaf 1709260216999127215))) (.node (.node (.leaf 9481402156134083854) (.leaf 7010825398088950073)) (.node (.leaf 11927612110192095594) (.leaf 1847659958800545532))))) (.node (.node (.node (.node (.leaf 4833871641753956973) (.leaf 6040025636554413448)) (.node (.leaf 324018220565131618) (.leaf 3192129624583048617))) (.node (.node (.leaf 6355612913944115582) (.leaf 2073823345104512763)) (.node (.leaf 18172587415911794697) (.leaf 5505835096023237467)))) (.node (.node (.node (.leaf 8581384536378453174) (.leaf 17408092287760072435)) (.node (.leaf 10091196155939766762) (.leaf 6961002503676766059))) (.node (.node (.leaf 5674731120880514054) (.leaf 12727493526372966914)) (.node (.leaf 14495340605117036433) (.leaf 11564350990306391909)))))) (.node (.node (.node (.node (.node (.leaf 8035693736598982) (.leaf 17022274778641421856)) (.node (.leaf 444859726467077100) (.leaf 3505710717588554451))) (.node (.node (.leaf 3761332334114480601) (.leaf 9787412092125391825)) (.node (.leaf 3163886181095586876) (.leaf 10250574035983220083)))) (.node (.node (.node (.leaf 2444226148615986247) (.leaf 10650336720460037524)) (.node (.leaf 13773368997614817352) (.leaf 12863343350735196695))) (.node (.node (.leaf 15908982312136047155) (.leaf 7904773774112480084)) (.node (.leaf 6608251503224045653) (.leaf 1260701939751622572))))) (.node (.node (.node (.node (.leaf 13261375344439365942) (.leaf 14827319081180971862)) (.node (.leaf 17883092911116407139) (.leaf 13733364607601901976))) (.node (.node (.leaf 16083767138253261836) (.leaf 5078714231607172034)) (.node (.leaf 2289616320119846519) (.leaf 3534492918559241409)))) (.node (.node (.node (.leaf 9672798177272384013) (.leaf 7330316532542527402)) (.node (.leaf 17312790307135102336) (.leaf 14129560020640296419))) (.node (.node (.leaf 16484415188183747595) (.leaf 16284936025197435768)) (.node (.leaf 567152649540252526) (.leaf 2850873538530220614))))))) (.node (.node (.node (.node (.node (.node (.leaf 3696887708376707206) (.leaf 17611013888406686437)) (.node (.leaf 16028946515251735079) (.leaf 6480679968953871045))) (.node (.node (.leaf 4939435302730086555) (.leaf 11643974288372008844)) (.node (.leaf 6138051891055007065) (.leaf 15716942847182405876)))) (.node (.node (.node (.leaf 16743423041157612967) (.leaf 18375054354243395937)) (.node (.leaf 12515620753236461040) (.leaf 8699552941688725550))) (.node (.node (.leaf 14759641124687081643) (.leaf 7448122487179701282)) (.node (.leaf 5424422506898980989) (.leaf 7808834069236186148))))) (.node (.node (.node (.node (.leaf 7654006327997756191) (.leaf 15373597064347381269)) (.node (.leaf 4550130404325265599) (.leaf 9021988238430187352))) (.node (.node (.leaf 16945689692951748306) (.leaf 16384347479665821561)) (.node (.leaf 7994498601142398337) (.leaf 7602662421611395258)))) (.node (.node (.node (.leaf 9289506000032435727) (.leaf 8735325692533701515)) (.node (.leaf 1583047870951954108) (.leaf 16928009265821603296))) (.node (.node (.leaf 15315538543162377097) (.leaf 8165455482524360488)) (.node (.leaf 14439334043957349157) (.leaf 6690532470810252489)))))) (.node (.node (.node (.node (.node (.leaf 7398928076331350886) (.leaf 4615073654586721968)) (.node (.leaf 13367213874212953250) (.leaf 5123528548058955034))) (.node (.node (.leaf 5766666000310847581) (.leaf 5029635829809644534)) (.node (.leaf 9205247894293092425) (.leaf 1337073990580866039)))) (.node (.node (.node (.leaf 4234422582520996788) (.leaf 6748860507377428365)) (.node (.leaf 8940555892923542494) (.leaf 12129878607681497171))) (.node (.node (.leaf 4030589489031456317) (.leaf 9118994789863851297)) (.node (.leaf 11194779171060595473) (.leaf 10489623450554821463))))) (.node (.node (.node (.node (.leaf 17560683847414758191) (.leaf 12392656563242967916)) (.node (.leaf 11047037806063308263) (.leaf 424365622549922381))) (.node (.node (.leaf 9371860567882391019) (.leaf 11851945216589481773)) (.node (.leaf 15202721634031139259) (.leaf 11751197124615328778)))) (.node (.node (.node (.leaf 4539212031107723272) (.leaf 8497465894455808784)) (.node (.leaf 18330786101873426394) (.leaf 7202416440409261180))) (.node (.node (.leaf 17129282320517226468) (.leaf 14958839531042877044)) (.node (.leaf 7544069269171493285) (.leaf 7748861702603331805)))))))))
noncomputable def g8_3 : Tree := (.node (.node (.node (.node (.node (.node (.node (.node (.leaf 13154555843001519819) (.leaf 389618008481851272)) (.node (.leaf 244792971525535325) (.leaf 46456126402659857))) (.node (.node (.leaf 6010581032394530691) (.leaf 4119960150685190431)) (.node (.leaf 10010548692183405123) (.leaf 6808022389513533864)))) (.node (.node (.node (.leaf 16424817892537147785) (.leaf 3062065753714252187)) (.node (.leaf 1888949009896405357) (.leaf 13811777313412241974))) (.node (.node (.leaf 16005848720323155938) (.leaf 13553019882390773369)) (.node (.leaf 4536360349340840517) (.leaf 14229613470290769361))))) (.node (.node (.node (.node (.leaf 6736645356785040838) (.leaf 5066226020254118264)) (.node (.leaf 4810088371734170890) (.leaf 7804037674070160824))) (.node (.node (.leaf 10559228894912271281) (.leaf 129673686661562968)) (.node (.leaf 7044420845900426339) (.leaf 1076884536897424136)))) (.node (.node (.node (.leaf 12581242291702956835) (.leaf 15577672454881795373)) (.node (.leaf 10654836696757591863) (.leaf 7104030940622036702))) (.node (.node (.leaf 10958479003464360988) (.leaf 18109435298107789388)) (.node (.leaf 7908708713517050794) (.leaf 554647742569555521)))))) (.node (.node (.node (.node (.node (.leaf 935982873951491211) (.leaf 333769884667081306)) (.node (.leaf 12400829046084161186) (.leaf 8034719320710197163))) (.node (.node (.leaf 15091087859211427970) (.leaf 2983095308479578005)) (.node (.leaf 3665414852326206956) (.leaf 2585932741497936755)))) (.node (.node (.node (.leaf 3711740365625866435) (.leaf 2370913228013852865)) (.node (.leaf 7749632042525746085) (.leaf 15789595523358204667))) (.node (.node (.leaf 17442184426740276526) (.leaf 12255185890097199295)) (.node (.leaf 16269721681241867604) (.leaf 14700611041001782114))))) (.node (.node (.node (.node (.leaf 8360361804164371016) (.leaf 2785287601907843844)) (.node (.leaf 4416419457913013448) (.leaf 17962736012078913181))) (.node (.node (.leaf 11263568142057425335) (.leaf 6215934773404085545)) (.node (.leaf 2044800635195325134) (.leaf 6644238123364988752)))) (.node (.node (.node (.leaf 16132314288303774124) (.leaf 14863963047190411368)) (.node (.leaf 10278026049547607305) (.leaf 13107064928467026532))) (.node (.node (.leaf 10148910371794433026) (.leaf 2829846979611168066)) (.node (.leaf 9615024008906970048) (.leaf 8724121005190273836))))))) (.node (.node (.node (.node (.node (.node (.leaf 6578630856533928009) (.leaf 4637627476064128234)) (.node (.leaf 13187810002715705414) (.leaf 11843999812403443572))) (.node (.node (.leaf 11700138390667388491) (.leaf 8681809912570556566)) (.node (.leaf 9064212212432368569) (.leaf 8910851692576384708)))) (.node (.node (.node (.leaf 15544883508643750291) (.leaf 17059146797016284238)) (.node (.leaf 2907531913988151258) (.leaf 16154505768667338516))) (.node (.node (.leaf 12014812400245504859) (.leaf 4052513309074063730)) (.node (.leaf 18398764367315080324) (.leaf 12220592395992434454))))) (.node (.node (.node (.node (.leaf 3757435656352497304) (.leaf 1284865965950718506)) (.node (.leaf 9541511625780538969) (.leaf 2206360629831571840))) (.node (.node (.leaf 10784852001655574515) (.leaf 11575322453134458236)) (.node (.leaf 18054096091537664908) (.leaf 6554459908801801007)))) (.node (.node (.node (.leaf 1621054009086561973) (.leaf 8568101710160524775)) (.node (.leaf 11408350528301092809) (.leaf 14273728174019856530))) (.node (.node (.leaf 2724104675906082841) (.leaf 10858290908117587085)) (.node (.leaf 9667533576247057660) (.leaf 17882453746554123996)))))) (.node (.node (.node (.node (.node (.leaf 11319567523815215978) (.leaf 5270494744279679285)) (.node (.leaf 4861637239221262370) (.leaf 12924203738870142221))) (.node (.node (.leaf 6410945025316916400) (.leaf 13684660627593418366)) (.node (.leaf 14413293745994582749) (.leaf 3419981282323558630)))) (.node (.node (.node (.leaf 17002513808593904917) (.leaf 12094255136038994388)) (.node (.leaf 17193648175632956178) (.leaf 11777629449507044079))) (.node (.node (.leaf 11106376031431731185) (.leaf 8615311790076162855)) (.node (.leaf 4374781076840679909) (.leaf 15752226394938291419))))) (.node (.node (.node (.node (.leaf 13375444757950736911) (.leaf 15901115365177729474)) (.node (.leaf 3275649562973106311) (.leaf 17569624871424895716))) (.node (.node (.leaf 12883594397640145663) (.leaf 9248861470706657822)) (.node (.leaf 7634650184033317864) (.leaf 12389178352265777254)))) (.node (.node (.node (.leaf 16773592820911463638) (.leaf 6293568455061259320)) (.node (.leaf 2388758271091654608) (.leaf 12741139312417735838))) (.node (.node (.leaf 3961753695117545465) (.leaf 16633711649680568253)) (.node (.leaf 14798035832591480891) (.leaf 13451950787727858517)))))))) (.node (.node (.node (.node (.node (.node (.node (.leaf 155100380344844157) (.leaf 10736164402517418763)) (.node (.leaf 5972540726738915892) (.leaf 14020665588291056608))) (.node (.node (.leaf 17740916908671585296) (.leaf 17277341109799478135)) (.node (.leaf 5789559630837652047) (.leaf 16564447330664956916)))) (.node (.node (.node (.leaf 16866248159732304082) (.leaf 7654978646851952164)) (.node (.leaf 15215482821224851762) (.leaf 3534524677157975919))) (.node (.node (.leaf 3335345939729180839) (.leaf 17835190973024989108)) (.node (.leaf 12480459663828739371) (.leaf 5566590548239389599))))) (.node (.node (.node (.node (.leaf 16326245700486786617) (.leaf 1839649446525659441)) (.node (.leaf 1309449344025529159) (.leaf 8319381899394557208))) (.node (.node (.leaf 15975120462365151374) (.leaf 15485093945669359791)) (.node (.leaf 16648936309381157289) (.leaf 4000850224049189471)))) (.node (.node (.node (.leaf 8980438043509126297) (.leaf 664320373572096394)) (.node (.leaf 9311131270472923607) (.leaf 1576226576964896745))) (.node (.node (.leaf 10316291865711751275) (.leaf 14054317995079794181)) (.node (.leaf 8266675180029022448) (.leaf 7488904715639271166)))))) (.node (.node (.node (.node (.node (.leaf 11908843430028414717) (.leaf 586323674269734717)) (.node (.leaf 11461213496447522051) (.leaf 5736173708032871273))) (.node (.node (.leaf 5378485863652480539) (.leaf 11043323025792556963)) (.node (.leaf 1400852113207094672) (.leaf 18333112291477878485)))) (.node (.node (.node (.leaf 17078442635904560240) (.leaf 7506991959885504832)) (.node (.leaf 14172805090053007565) (.leaf 4683919180614135031))) (.node (.node (.leaf 975636848463634124) (.leaf 12770338865469685126)) (.node (.leaf 3214884361426343414) (.leaf 10378644943360682707))))) (.node (.node (.node (.node (.leaf 9841935761539146885) (.leaf 4233229334389590751)) (.node (.leaf 5123658087036796567) (.leaf 1491075057769947793))) (.node (.node (.leaf 12994796411379388826) (.leaf 9796009574792514080)) (.node (.leaf 2097941438809916789) (.leaf 14621764992141662842)))) (.node (.node (.node (.leaf 8452220647572962177) (.leaf 3154214842375615806)) (.node (.leaf 7163896040533037562) (.leaf 9137643353141625546))) (.node (.node (.leaf 6195751705837684195) (.leaf 13896391223444065604)) (.node (.leaf 6983680613910153779) (.leaf 13937983819833551698))))))) (.node (.node (.node (.node (.node (.node (.leaf 15169899548069605745) (.leaf 7223249118333786585)) (.node (.leaf 7977151544143526918) (.leaf 448870511391679270))) (.node (.node (.leaf 10938816574274353787) (.leaf 8122454913541586984)) (.node (.leaf 6427424886657410296) (.leaf 5643889835618235535)))) (.node (.node (.node (.leaf 11643124982107807841) (.leaf 15049923308734734432)) (.node (.leaf 13742717191121453742) (.leaf 16823088331061960883))) (.node (.node (.leaf 8204125052789787911) (.leaf 9923038589505783629)) (.node (.leaf 4311487051651996709) (.leaf 9374750106452477606))))) (.node (.node (.node (.node (.leaf 16466482600542906593) (.leaf 17653025916949604807)) (.node (.leaf 15410088645716426148) (.leaf 820406830584341578))) (.node (.node (.leaf 11176745801718502941) (.leaf 5490317464816199611)) (.node (.leaf 5216111734706534156) (.leaf 1798926513427447841)))) (.node (.node (.node (.leaf 3850950043163575822) (.leaf 3506799015517357038)) (.node (.leaf 1212200297172002501) (.leaf 4580396918927157052))) (.node (.node (.leaf 14507471019643739580) (.leaf 5439466684080422130)) (.node (.leaf 13539014825596753397) (.leaf 14943238956480763041)))))) (.node (.node (.node (.node (.node (.leaf 9459463684633602362) (.leaf 10178834811900294719)) (.node (.leaf 7379097600884581718) (.leaf 6883778611526844442))) (.node (.node (.leaf 17301853675351585374) (.leaf 10086156664346510552)) (.node (.leaf 1084040737184657854) (.leaf 18230531048809033590)))) (.node (.node (.node (.leaf 17383742858569746102) (.leaf 12145037754565922738)) (.node (.leaf 8843772701641540912) (.leaf 17694939664763511383))) (.node (.node (.leaf 14371862726900510394) (.leaf 14656100877779519852)) (.node (.leaf 7287448673772870635) (.leaf 12665327498152623105))))) (.node (.node (.node (.node (.leaf 5839281906544258208) (.leaf 2288800945536809239)) (.node (.leaf 2472380359910333440) (.leaf 1998472859811659412))) (.node (.node (.leaf 13294849471643840869) (.leaf 15318905969152040860)) (.node (.leaf 720916529698570065) (.leaf 6099693855482339932)))) (.node (.node (.node (.leaf 15695215186786839891) (.leaf 10495801602675935405)) (.node (.leaf 1713721957751802861) (.leaf 4904941414476923246))) (.node (.node (.leaf 18232664778394163731) (.leaf 4980615677779709135)) (.node (.leaf 2611196470840887167) (.leaf 9218575284774553703)))))))))
noncomputable def g8 : G := ⟨g8_0, g8_1, g8_2, g8_3, ⟨9081953606982498253, 8599763840235520402, 2304938120978211369⟩⟩

noncomputable def g9_0 : Tree := (.node (.node (.node (.node (.node (.node (.node (.node (.leaf 192161084410021932) (.leaf 17780348228187153837)) (.node (.leaf 12245112073250251285) (.leaf 6123275511604029710))) (.node (.node (.leaf 18253813989218010587) (.leaf 6348971829250039156)) (.node (.leaf 12375791348818791311) (.leaf 15875353708994527326)))) (.node (.node (.node (.leaf 5461170853188233674) (.leaf 12981949229248928542)) (.node (.leaf 16053929438299419906) (.leaf 82882190345753046))) (.node (.node (.leaf 3726213727342074265) (.leaf 9224083789824075738)) (.node (.leaf 3786785754325481929) (.leaf 3929904976842854631))))) (.node (.node (.node (.node (.leaf 10520095392094481430) (.leaf 6532908929891993313)) (.node (.leaf 479582384021548888) (.leaf 14553119344155278621))) (.node (.node (.leaf 7687093260816370229) (.leaf 7438961995411504536)) (.node (.leaf 2817526428282690355) (.leaf 17853230187172589091)))) (.node (.node (.node (.leaf 3639487349075457514) (.leaf 12714907849768994035)) (.node (.leaf 9766659517210020946) (.leaf 18344864768363167654))) (.node (.node (.leaf 3867903173659863808) (.leaf 245098212897316509)) (.node (.leaf 1610735609208271529) (.leaf 840021201403594425)))))) (.node (.node (.node (.node (.node (.leaf 13301796014626673043) (.leaf 5509386378038351114)) (.node (.leaf 14770629081307213686) (.leaf 3409070468749552707))) (.node (.node (.leaf 17965848418573448723) (.leaf 10995350616300368100)) (.node (.leaf 10878141871536407148) (.leaf 8620666197030397582)))) (.node (.node (.node (.leaf 15532482588507371339) (.leaf 8293522169532216190)) (.node (.leaf 10560886375523414112) (.leaf 5317086333501398863))) (.node (.node (.leaf 18187146493671682513) (.leaf 15364621786240366225)) (.node (.leaf 6483111184363743892) (.leaf 4072314935533140184))))) (.node (.node (.node (.node (.leaf 1153888081213767418) (.leaf 4306768467912922490)) (.node (.leaf 15286643676034054462) (.leaf 13346759813895566776))) (.node (.node (.leaf 13643301300327507887) (.leaf 3058040033374272242)) (.node (.leaf 5778819544549162989) (.leaf 7785869327458652667)))) (.node (.node (.node (.leaf 4594386372806773446) (.leaf 13458354766562831531)) (.node (.leaf 3112325204773089946) (.leaf 18061210545405971496))) (.node (.node (.leaf 2903302618641350460) (.leaf 17058415725868772978)) (.node (.leaf 9322093057297729318) (.leaf 10780048469059715146))))))) (.node (.node (.node (.node (.node (.node (.leaf 15126847756067798227) (.leaf 16924248183920207497)) (.node (.leaf 2451462800594599044) (.leaf 1347646148621096924))) (.node (.node (.leaf 9701677816629565774) (.leaf 4139545848261918257)) (.node (.leaf 1095679224784051506) (.leaf 16333709018586462669)))) (.node (.node (.node (.leaf 9624360702107582134) (.leaf 17137705264715763093)) (.node (.leaf 15933820570177282161) (.leaf 14798583357066252045))) (.node (.node (.leaf 13046937104851411705) (.leaf 7316996110675895496)) (.node (.leaf 1001113784503376452) (.leaf 10036028865189007262))))) (.node (.node (.node (.node (.leaf 13972229353060877403) (.leaf 5024362795291165464)) (.node (.leaf 15648517007054997184) (.leaf 8084155886600706172))) (.node (.node (.leaf 18101615104391695081) (.leaf 12094306860821127202)) (.node (.leaf 14854264236565187504) (.leaf 3975529245942811775)))) (.node (.node (.node (.leaf 13778939927300621003) (.leaf 4514294531253260408)) (.node (.leaf 15149471625173703752) (.leaf 1827116215231443280))) (.node (.node (.leaf 14173244302592981580) (.leaf 18382244141947432065)) (.node (.leaf 11521705677011311011) (.leaf 3582548851868415099)))))) (.node (.node (.node (.node (.node (.leaf 12782397079979459523) (.leaf 7055530816399726065)) (.node (.leaf 16632516568981612149) (.leaf 11934332079254439408))) (.node (.node (.leaf 1782966380752477783) (.leaf 10918500573482272554)) (.node (.leaf 5664920977038309978) (.leaf 6979906380138392310)))) (.node (.node (.node (.leaf 7624427211801467585) (.leaf 8560729846514426223)) (.node (.leaf 7174555472338246248) (.leaf 11074525406701380533))) (.node (.node (.leaf 6795615831836304335) (.leaf 8740680720955398503)) (.node (.leaf 1023410084597157153) (.leaf 16726939852156982949))))) (.node (.node (.node (.node (.leaf 16413194102674088703) (.leaf 4736847417814365323)) (.node (.leaf 8942924971591169380) (.leaf 13983377902113824018))) (.node (.node (.leaf 2053990370699062659) (.leaf 2549039398117523950)) (.node (.leaf 2169966377851914741) (.leaf 9024005422763877260)))) (.node (.node (.node (.leaf 8167709489611128805) (.leaf 12609307084160218989)) (.node (.leaf 6658792778826970042) (.leaf 13852614098097717938))) (.node (.node (.leaf 15729370535605311406) (.leaf 4846211851800332695)) (.node (.leaf 2124074348725093219) (.leaf 10099594741149088777)))))))) (.node (.node (.node (.node (.node (.node (.node (.leaf 15438984952632551647) (.leaf 13524195571456290795)) (.node (.leaf 14074214347824172455) (.leaf 10432077251429625953))) (.node (.node (.leaf 14445834393465872528) (.leaf 17915708890895415380)) (.node (.leaf 9188623001365630644) (.leaf 6004470052109635234)))) (.node (.node (.node (.leaf 2807403890869430471) (.leaf 5953932181656196588)) (.node (.leaf 17352450723019347533) (.leaf 1410836204891579507))) (.node (.node (.leaf 4385354755737207824) (.leaf 5869258529235817095)) (.node (.leaf 10313123195440460416) (.leaf 16243452969448035255))))) (.node (.node (.node (.node (.leaf 14258512676708897628) (.leaf 8394916073136321619)) (.node (.leaf 8040471598428721433) (.leaf 9576932420471840503))) (.node (.node (.leaf 16655207703772996763) (.leaf 1495709795638021853)) (.node (.leaf 6271809538389747148) (.leaf 4822792693229057079)))) (.node (.node (.node (.leaf 7231768673210295874) (.leaf 12529331491343943301)) (.node (.leaf 3231903178338053659) (.leaf 17227503919064975453))) (.node (.node (.leaf 16971248669162869717) (.leaf 11772883415392385323)) (.node (.leaf 14919163634510934705) (.leaf 12399019680306093304)))))) (.node (.node (.node (.node (.node (.leaf 8433730983999580642) (.leaf 10623801869083794740)) (.node (.leaf 11414779561454653953) (.leaf 11136346860779820836))) (.node (.node (.leaf 15811522084086330280) (.leaf 17461994705873760015)) (.node (.leaf 917979262574953061) (.leaf 17429939616222159152)))) (.node (.node (.node (.leaf 10247451172578640253) (.leaf 2654438685593403704)) (.node (.leaf 5194451073157272820) (.leaf 2235815734169349430))) (.node (.node (.leaf 16142737527111960839) (.leaf 7065871186401514693)) (.node (.leaf 17712302596096973518) (.leaf 9144017886090395181))))) (.node (.node (.node (.node (.leaf 14325025071994874836) (.leaf 16819688395474402754)) (.node (.leaf 6583653767859745577) (.leaf 12889963663060069201))) (.node (.node (.leaf 11250534307496770423) (.leaf 356465461980763297)) (.node (.leaf 5127343221472499391) (.leaf 6767660950127960836)))) (.node (.node (.node (.leaf 15217056259629169836) (.leaf 17183401530317006895)) (.node (.leaf 16110141331591891900) (.leaf 8884687555648397278))) (.node (.node (.leaf 4458122598989104198) (.leaf 3262884675994976585)) (.node (.leaf 17531328392445218617) (.leaf 17615526343354926492))))))) (.node (.node (.node (.node (.node (.node (.leaf 360583272091693114) (.leaf 7546029352771346749)) (.node (.leaf 10232159300032276640) (.leaf 11351314568378350560))) (.node (.node (.leaf 11887658950132023475) (.leaf 19756975038063957)) (.node (.leaf 13577902081852085792) (.leaf 4241297479235146429)))) (.node (.node (.node (.leaf 11534709669832330386) (.leaf 11184438133355450086)) (.node (.leaf 12269290567014332514) (.leaf 5705637825468839427))) (.node (.node (.leaf 2386607848145954107) (.leaf 9843658196839165314)) (.node (.leaf 5576036528612022280) (.leaf 13237445758452238656))))) (.node (.node (.node (.node (.leaf 683464737997649420) (.leaf 5382430637907862055)) (.node (.leaf 7745029097884773842) (.leaf 9397490241230288781))) (.node (.node (.leaf 15632962550820514309) (.leaf 14632520778583596202)) (.node (.leaf 13732562119611456452) (.leaf 8249883947891052783)))) (.node (.node (.node (.leaf 6913491700890369306) (.leaf 10712911019007135088)) (.node (.leaf 8649232900782758918) (.leaf 9490573389704652003))) (.node (.node (.leaf 14616442986241833518) (.leaf 7872483183910031193)) (.node (.leaf 12176632444672081951) (.leaf 7383841643620359019)))))) (.node (.node (.node (.node (.node (.leaf 5082525411724515365) (.leaf 12007991743853683007)) (.node (.leaf 1997691337408121620) (.leaf 3359153199665055678))) (.node (.node (.leaf 1689157492944834662) (.leaf 786394652757581727)) (.node (.leaf 2685040357943449465) (.leaf 1284761774390641503)))) (.node (.node (.node (.leaf 3494733269812696174) (.leaf 9899762154639161194)) (.node (.leaf 7982812639447619612) (.leaf 11732880715737587846))) (.node (.node (.leaf 580208167620049917) (.leaf 11607242146912724951)) (.node (.leaf 16441762196192007144) (.leaf 4924896941215412491))))) (.node (.node (.node (.node (.leaf 1886881177690542730) (.leaf 6214828885101518609)) (.node (.leaf 12652928133737850695) (.leaf 16520349811905391568))) (.node (.node (.leaf 10011753443646998377) (.leaf 2989990998156652869)) (.node (.leaf 8857735365978220950) (.leaf 13114707338175327767)))) (.node (.node (.node (.leaf 533670413207046843) (.leaf 2367193538074983385)) (.node (.leaf 6126070648281892182) (.leaf 14345968455719270652))) (.node (.node (.leaf 15056672329788754174) (.leaf 12957356569002207908)) (.node (.leaf 1537915659573698113) (.leaf 4655848423024183432)))))))))
noncomputable def g9_1 : Tree := (.node (.node (.node (.node (.node (.node (.node (.node (.leaf 10134997792756670776) (.leaf 2145484975108090874)) (.node (.leaf 5058061445563887783) (.leaf 16814134679087722226))) (.node (.node (.leaf 17414275321671657433) (.leaf 4376472677692212912)) (.node (.leaf 18322749590590306364) (.leaf 11349500311130628677)))) (.node (.node (.node (.leaf 8964882756652996621) (.leaf 5984313543483849821)) (.node (.leaf 12734421984406579034) (.leaf 17628287908542575041))) (.node (.node (.leaf 15057760521046058790) (.leaf 14855757024746061124)) (.node (.leaf 2946872810494351238) (.leaf 4905987595597183267))))) (.node (.node (.node (.node (.leaf 16134363944652285330) (.leaf 299468664717956722)) (.node (.leaf 12235464066374709981) (.leaf 725596383948339639))) (.node (.node (.leaf 11720003357315970396) (.leaf 9179618665419294153)) (.node (.leaf 11600200361101893536) (.leaf 16417061170850174719)))) (.node (.node (.node (.leaf 1377962938155522778) (.leaf 2486212712115949777)) (.node (.leaf 9121210966088987469) (.leaf 10237701388398290656))) (.node (.node (.leaf 5464834030786656735) (.leaf 7293839104486743803)) (.node (.leaf 4446915035236811269) (.leaf 3200582249077473362)))))) (.node (.node (.node (.node (.node (.leaf 15701301866530312756) (.leaf 2604898287863037350)) (.node (.leaf 8619377779113789724) (.leaf 3259824826544110665))) (.node (.node (.leaf 15219126008178963626) (.leaf 12126852072467538721)) (.node (.leaf 11819293547047183744) (.leaf 648570957200857649)))) (.node (.node (.node (.leaf 2969020288110711094) (.leaf 12998437760070566735)) (.node (.leaf 7929519110644202143) (.leaf 6165740581406527283))) (.node (.node (.leaf 11417499046543834471) (.leaf 17870850833465354398)) (.node (.leaf 1504241455991700995) (.leaf 16233396642806220413))))) (.node (.node (.node (.node (.leaf 11956359887442459375) (.leaf 13918581721368592200)) (.node (.leaf 17175013115595829719) (.leaf 8188212455447327179))) (.node (.node (.leaf 14607529370168501460) (.leaf 6718006714886103808)) (.node (.leaf 2389523362618003979) (.leaf 6692330250252974864)))) (.node (.node (.node (.leaf 5235630359018068478) (.leaf 12967228121001153771)) (.node (.leaf 5005647493580383061) (.leaf 4121554272048859533))) (.node (.node (.leaf 13709238524574621850) (.leaf 20998942307800981)) (.node (.leaf 10902841180852401294) (.leaf 14216747270641070184))))))) (.node (.node (.node (.node (.node (.node (.leaf 17327987183158847818) (.leaf 2236022775788014739)) (.node (.leaf 7212395796114704492) (.leaf 2163320955862577169))) (.node (.node (.leaf 1177149531768050885) (.leaf 8330286351280454334)) (.node (.leaf 1953090165591797908) (.leaf 14052476673191051179)))) (.node (.node (.node (.leaf 4873122875236583187) (.leaf 16886519118664742801)) (.node (.leaf 9596520154339397712) (.leaf 5728390739294059455))) (.node (.node (.leaf 1020913272658609139) (.leaf 18149794845214326880)) (.node (.leaf 7792911380270318106) (.leaf 15945342954961434855))))) (.node (.node (.node (.node (.leaf 8011611286976654060) (.leaf 15597315892427908818)) (.node (.leaf 2710411803653576892) (.leaf 12474163934259009008))) (.node (.node (.leaf 17760607034727240491) (.leaf 1311515888418100141)) (.node (.leaf 16540681404979474252) (.leaf 3060306764985258379)))) (.node (.node (.node (.leaf 1522933775775699207) (.leaf 13225393685868885118)) (.node (.leaf 6389996827881336591) (.leaf 10766129519401851301))) (.node (.node (.leaf 3352987209382172079) (.leaf 5186872030565451242)) (.node (.leaf 8408908809908132673) (.leaf 10167153543664211210)))))) (.node (.node (.node (.node (.node (.leaf 15520830800160787697) (.leaf 12260081690460511138)) (.node (.leaf 926571032404523256) (.leaf 2555064697352399749))) (.node (.node (.leaf 13622888265714953538) (.leaf 4518705617615210206)) (.node (.leaf 16709321205526595651) (.leaf 16624988000435439410)))) (.node (.node (.node (.leaf 18433866172390841620) (.leaf 15307957301262458747)) (.node (.leaf 1247825527697622215) (.leaf 3457967411285921160))) (.node (.node (.leaf 7481622956637613254) (.leaf 11166940413928288662)) (.node (.leaf 4602317996152131523) (.leaf 17494101380160870462))))) (.node (.node (.node (.node (.leaf 16734845762633172009) (.leaf 7585339030988598911)) (.node (.leaf 7159287417980023627) (.leaf 16437006910739107535))) (.node (.node (.leaf 13488048757323280152) (.leaf 16004712747415354350)) (.node (.leaf 523065790765633855) (.leaf 832456332438078972)))) (.node (.node (.node (.leaf 277273668796778895) (.leaf 10972313491522603933)) (.node (.leaf 4039045303867903958) (.leaf 17557154007356892260))) (.node (.node (.leaf 8245710397367475796) (.leaf 15095782438509924155)) (.node (.leaf 10001446825249482422) (.leaf 199529698214846945)))))))) (.node (.node (.node (.node (.node (.node (.node (.leaf 13112942411086593176) (.leaf 8105113167688213101)) (.node (.leaf 127144239343183556) (.leaf 8781365155514984477))) (.node (.node (.leaf 4665632285077072812) (.leaf 5813047853893604719)) (.node (.leaf 17101277153008337249) (.leaf 3775907852722709904)))) (.node (.node (.node (.leaf 1788373666350643223) (.leaf 10063767451322469793)) (.node (.leaf 3610013905767162301) (.leaf 2775138666846013704))) (.node (.node (.leaf 6557076552883498508) (.leaf 4758166325290885592)) (.node (.leaf 16975758675589467112) (.leaf 6294967873409625577))))) (.node (.node (.node (.node (.leaf 17071884837294722070) (.leaf 9274116698665729932)) (.node (.leaf 14521488796891704019) (.leaf 12380346628542262549))) (.node (.node (.leaf 13858900325166125219) (.leaf 13817862081503380489)) (.node (.leaf 9891018250494749834) (.leaf 2366443833369458084)))) (.node (.node (.node (.leaf 9736338798275446902) (.leaf 9075093122694952579)) (.node (.leaf 8487951961246484329) (.leaf 14282768474744127948))) (.node (.node (.leaf 5900962944345504298) (.leaf 15727027438054414638)) (.node (.leaf 11627812413739870478) (.leaf 6594082908833376636)))))) (.node (.node (.node (.node (.node (.leaf 2876113394653835253) (.leaf 7921891806883667113)) (.node (.leaf 12561128539659695092) (.leaf 1927990231798598329))) (.node (.node (.leaf 12097334446865957019) (.leaf 7694509125087258660)) (.node (.leaf 1827259765432906334) (.leaf 6840953579313599527)))) (.node (.node (.node (.leaf 16157112215458663673) (.leaf 638427851643001268)) (.node (.leaf 13366020562580458375) (.leaf 14727389866709209909))) (.node (.node (.leaf 9408695249475469912) (.leaf 1006116762209573424)) (.node (.leaf 7720167682143722557) (.leaf 18010688238710569954))))) (.node (.node (.node (.node (.leaf 4273645908928902942) (.leaf 17722722912435119210)) (.node (.leaf 5952640890363887214) (.leaf 15830039866605786085))) (.node (.node (.leaf 9537816285188792540) (.leaf 15145714042189560863)) (.node (.leaf 9348172371079331419) (.leaf 1087236388553114084)))) (.node (.node (.node (.leaf 12659148062810664531) (.leaf 7561163689184488616)) (.node (.leaf 8834025324895253846) (.leaf 17278473046260716161))) (.node (.node (.leaf 10809496429380826688) (.leaf 3679400341018936270)) (.node (.leaf 11984119097878203906) (.leaf 13180923798599564602))))))) (.node (.node (.node (.node (.node (.node (.leaf 5496304611439545010) (.leaf 4015614174364622451)) (.node (.leaf 8872621848843143257) (.leaf 9474639833220357576))) (.node (.node (.leaf 8685721659902911928) (.leaf 14448698129342621797)) (.node (.leaf 10435906399963226249) (.leaf 3488918241771436409)))) (.node (.node (.node (.leaf 11522316841249524264) (.leaf 1707067868650347089)) (.node (.leaf 10457529316653456711) (.leaf 18014923036508939270))) (.node (.node (.leaf 10725401582585174818) (.leaf 10525571388092000549)) (.node (.leaf 11057038474637277035) (.leaf 14344032137169061734))))) (.node (.node (.node (.node (.leaf 5372248980252057523) (.leaf 401718702801325595)) (.node (.leaf 3897009794499109038) (.leaf 8505424136897647334))) (.node (.node (.leaf 3834661529332395245) (.leaf 14815254626362180166)) (.node (.leaf 7028956335202063950) (.leaf 9830632302435008569)))) (.node (.node (.node (.leaf 16311896726504911480) (.leaf 18199266044730838384)) (.node (.leaf 5658738116244660858) (.leaf 3125513931568749367))) (.node (.node (.leaf 17810811488665936571) (.leaf 7099182620125899396)) (.node (.leaf 18286196290126427804) (.leaf 15468411097993993303)))))) (.node (.node (.node (.node (.node (.leaf 14145170356375623321) (.leaf 15407033665323996205)) (.node (.leaf 1642367260166983779) (.leaf 13287661242575521226))) (.node (.node (.leaf 13549853253573508854) (.leaf 6267167294771660507)) (.node (.leaf 2050857069611516690) (.leaf 10608842256044025632)))) (.node (.node (.node (.leaf 6084884413359141837) (.leaf 3584165762248589172)) (.node (.leaf 6895930976036156021) (.leaf 4221849341682874298))) (.node (.node (.leaf 12435588193396815541) (.leaf 11776761615328894914)) (.node (.leaf 11295286116899422656) (.leaf 6482221067866888419))))) (.node (.node (.node (.node (.leaf 15893194850097110146) (.leaf 10334749812473548057)) (.node (.leaf 5278101994034269023) (.leaf 12799090196164356821))) (.node (.node (.leaf 5575916790621729836) (.leaf 449449860422732496)) (.node (.leaf 14032912393962007959) (.leaf 7373891188317462020)))) (.node (.node (.node (.leaf 13452577818508784943) (.leaf 12872221158554865405)) (.node (.leaf 14959131619444266865) (.leaf 9717329938052350977))) (.node (.node (.leaf 14693275290038736738) (.leaf 4741980748246100913)) (.node (.leaf 11240610241522590711) (.leaf 6962915537594899831)))))))))
noncomputable def g9_2 : Tree := (.node (.node (.node (.node (.node (.node (.node (.node (.leaf 17603728921576797083) (.leaf 12951368202452907227)) (.node (.leaf 2680946421623222923) (.leaf 5833687712321450758))) (.node (.node (.leaf 10446780825333451953) (.leaf 11429650328193508021)) (.node (.leaf 14647425364486201135) (.leaf 7063221545092108752)))) (.node (.node (.node (.leaf 17348791499771359909) (.leaf 2519651210175951066)) (.node (.leaf 9489207347281417314) (.leaf 3744762225044790781))) (.node (.node (.leaf 3784712198944435549) (.leaf 17231094194782336399)) (.node (.leaf 8314542897323995012) (.leaf 3360426035569173934))))) (.node (.node (.node (.node (.leaf 12242063727067742359) (.leaf 15052600101583129166)) (.node (.leaf 16471127683471575041) (.leaf 1197984001621187890))) (.node (.node (.leaf 16833713721971800556) (.leaf 12080813770117808857)) (.node (.leaf 11039137180639074697) (.leaf 13842673874767421020)))) (.node (.node (.node (.leaf 5419325647683263660) (.leaf 13499036973756902196)) (.node (.leaf 3918858612043755834) (.leaf 2600159874755752222))) (.node (.node (.leaf 582768774731375641) (.leaf 931772049463685864)) (.node (.leaf 17425308492855660905) (.leaf 12680385703364604114)))))) (.node (.node (.node (.node (.node (.leaf 15726560327772978114) (.leaf 12526474171463029517)) (.node (.leaf 12779377433550716989) (.leaf 15276489739412708939))) (.node (.node (.leaf 13806411022931644260) (.leaf 1014380586890667903)) (.node (.leaf 12166547435903631082) (.leaf 14617868141177339113)))) (.node (.node (.node (.leaf 4649952338879025373) (.leaf 2170546213049812646)) (.node (.leaf 10996935674957819437) (.leaf 1786324585973052291))) (.node (.node (.leaf 13426049998505499362) (.leaf 10899310100366624291)) (.node (.leaf 149203013623250932) (.leaf 13072298909393162646))))) (.node (.node (.node (.node (.leaf 10813303285062216688) (.leaf 11118869879872341152)) (.node (.leaf 14113892689679573338) (.leaf 655712379284349704))) (.node (.node (.leaf 15360703631276991736) (.leaf 15569464594451291717)) (.node (.leaf 12590722346108489650) (.leaf 13597547112506226646)))) (.node (.node (.node (.leaf 2102395058732074477) (.leaf 2769461564322628901)) (.node (.leaf 16641170092472725628) (.leaf 5868451040050997803))) (.node (.node (.leaf 4939003034595704600) (.leaf 17732809153828228063)) (.node (.leaf 18053537686861160766) (.leaf 13633264935898582172))))))) (.node (.node (.node (.node (.node (.node (.leaf 8972015071578044479) (.leaf 17918232622594975120)) (.node (.leaf 8275179612135807315) (.leaf 10532018782672966279))) (.node (.node (.leaf 2328870681399174659) (.leaf 91030547674831404)) (.node (.leaf 14006127712394780623) (.leaf 11361557945779908838)))) (.node (.node (.node (.leaf 10346483153547825038) (.leaf 18132436821534322225)) (.node (.leaf 1482645330158671656) (.leaf 4449182008650587164))) (.node (.node (.leaf 3821359575010162425) (.leaf 12416323598284884313)) (.node (.leaf 3119849171169069988) (.leaf 18008391059987758551))))) (.node (.node (.node (.node (.leaf 8152567490397018080) (.leaf 16324547138814991890)) (.node (.leaf 4838514391816812907) (.leaf 995161003044844989))) (.node (.node (.leaf 1580997072160894447) (.leaf 4594175989230805180)) (.node (.leaf 6945090343531857063) (.leaf 17813811460456885490)))) (.node (.node (.node (.leaf 8082601258823052775) (.leaf 10081853314156585984)) (.node (.leaf 2297273287098119709) (.leaf 4114255155565064742))) (.node (.node (.leaf 14241938101469780280) (.leaf 6260095662371333832)) (.node (.leaf 6722809525853715150) (.leaf 3618687251560618090)))))) (.node (.node (.node (.node (.node (.leaf 15135439984561918932) (.leaf 14846509944398889412)) (.node (.leaf 7984500942534932592) (.leaf 9933443212831508500))) (.node (.node (.leaf 1106428093809284556) (.leaf 9266881984199262)) (.node (.leaf 9797215349706622481) (.leaf 6083161794805871981)))) (.node (.node (.node (.leaf 11263775920581085330) (.leaf 6774809342351140321)) (.node (.leaf 12297532820101014049) (.leaf 12991044843779353012))) (.node (.node (.leaf 4084332920378199578) (.leaf 16504099882001280936)) (.node (.leaf 2918547058257254814) (.leaf 16728166320620776661))))) (.node (.node (.node (.node (.leaf 7454710675331464391) (.leaf 15554273743584382893)) (.node (.leaf 17455634026206795397) (.leaf 9328651171544096863))) (.node (.node (.leaf 14509784600853512959) (.leaf 6300859130173320991)) (.node (.leaf 8898434230423869039) (.leaf 18302037714608155178)))) (.node (.node (.node (.leaf 15444232451352052605) (.leaf 5925653416103425977)) (.node (.leaf 14465630751584037525) (.leaf 4380666191460303178))) (.node (.node (.leaf 4472070768070092822) (.leaf 5622739198822685891)) (.node (.leaf 18176743809351763772) (.leaf 14331154840503655244)))))))) (.node (.node (.node (.node (.node (.node (.node (.leaf 5255653878861566593) (.leaf 9604594995444361832)) (.node (.leaf 1965667308910709707) (.leaf 14728198401308002207))) (.node (.node (.leaf 13966028931780694119) (.leaf 10792395475290816310)) (.node (.leaf 15832578200403885828) (.leaf 549344159900792347)))) (.node (.node (.node (.leaf 10210463771158223605) (.leaf 13326999086616093937)) (.node (.leaf 4293240822539953848) (.leaf 1668728687936186543))) (.node (.node (.leaf 15928701336839932245) (.leaf 7044272464492945721)) (.node (.leaf 17166892642442089795) (.leaf 16187120305536562940))))) (.node (.node (.node (.node (.leaf 13243022533574086786) (.leaf 6040026388173730184)) (.node (.leaf 3966942250845010286) (.leaf 3235476771007565225))) (.node (.node (.leaf 6608955339659155528) (.leaf 2073881621208691963)) (.node (.leaf 8065242534826828300) (.leaf 6370504235436999515)))) (.node (.node (.node (.leaf 8575570370932956457) (.leaf 2437919318682894067)) (.node (.leaf 7730436577127167859) (.leaf 4191288733898516462))) (.node (.node (.leaf 15263843262763820551) (.leaf 12692309151415238146)) (.node (.leaf 7888485929171452313) (.leaf 11540425617290114917)))))) (.node (.node (.node (.node (.node (.leaf 3432101163544001126) (.leaf 17022399023462831904)) (.node (.leaf 11481293097653327157) (.leaf 18349575086985790163))) (.node (.node (.leaf 15691716086439796663) (.leaf 9813307845817349329)) (.node (.leaf 6523941337269011676) (.leaf 7656544631082925435)))) (.node (.node (.node (.leaf 17702999974772413585) (.leaf 15910541033693953428)) (.node (.leaf 1809567570737010367) (.leaf 12858557683429954071))) (.node (.node (.leaf 10623370902757183565) (.leaf 5382757329941322580)) (.node (.leaf 5530369581760390070) (.leaf 11204602771129669444))))) (.node (.node (.node (.node (.leaf 7399204608601723250) (.leaf 14827319798451128918)) (.node (.leaf 2541536716503872777) (.leaf 13692832129351205272))) (.node (.node (.leaf 15090573138083236068) (.leaf 7240639963802737526)) (.node (.leaf 11741684142258399395) (.leaf 3566581448152872171)))) (.node (.node (.node (.leaf 16966062458817463194) (.leaf 7330316532539935246)) (.node (.leaf 10698335340729010081) (.leaf 14163618481793363427))) (.node (.node (.leaf 252535387373479397) (.leaf 16284936025016818552)) (.node (.leaf 14400783985794665335) (.leaf 2850873538535902278))))))) (.node (.node (.node (.node (.node (.node (.leaf 9267084098268876387) (.leaf 4784766547702024715)) (.node (.leaf 9182383984484961840) (.leaf 6429263505457789381))) (.node (.node (.leaf 1378681265756181071) (.leaf 11643809361627848076)) (.node (.leaf 11860422438165297719) (.leaf 16077231472913187032)))) (.node (.node (.node (.leaf 17581702185853876295) (.leaf 18375054352465011041)) (.node (.leaf 3277653015927991238) (.leaf 8672927417234006062))) (.node (.node (.leaf 17140528914931682420) (.leaf 8511252842855656482)) (.node (.leaf 13165612037465541056) (.leaf 7808891243840830500))))) (.node (.node (.node (.node (.leaf 10303252061508699597) (.leaf 5589400185234648597)) (.node (.leaf 10009107724794704722) (.leaf 7531413310388973400))) (.node (.node (.leaf 846067627192719441) (.leaf 16384347479665827961)) (.node (.leaf 1923584425590591198) (.leaf 7602662423154898983)))) (.node (.node (.node (.leaf 8372343523731958067) (.leaf 8735532932582570878)) (.node (.leaf 5073098749914420659) (.leaf 16928009265814382867))) (.node (.node (.leaf 1637614952129749568) (.leaf 3064284477583875845)) (.node (.leaf 5715986277202476672) (.leaf 6686046347406841033)))))) (.node (.node (.node (.node (.node (.leaf 3011848735922869105) (.leaf 9370874861080921776)) (.node (.leaf 5131332118151466433) (.leaf 13338094199655136592))) (.node (.node (.leaf 460616974586671610) (.leaf 4972819665951491062)) (.node (.leaf 1263269568731244361) (.leaf 1337073990569410807)))) (.node (.node (.node (.leaf 5293357403498564930) (.leaf 4731235927570311053)) (.node (.leaf 11932835131576403347) (.leaf 354585162383087221))) (.node (.node (.leaf 11995285427098510250) (.leaf 9118994789914246022)) (.node (.leaf 16021690404386793594) (.leaf 10489623403310181207))))) (.node (.node (.node (.node (.leaf 9541384499170037057) (.leaf 12392690650905224044)) (.node (.leaf 7182032673867334842) (.leaf 424312304809591311))) (.node (.node (.leaf 9675137079782960290) (.leaf 6159395287593174880)) (.node (.leaf 8816890745504704925) (.leaf 11751196926056977418)))) (.node (.node (.node (.leaf 16696623043675241406) (.leaf 8444725620206277392)) (.node (.leaf 3483362406489639227) (.leaf 789302665671949514))) (.node (.node (.leaf 6907402213956082363) (.leaf 14929003185979240107)) (.node (.leaf 9065768490997243134) (.leaf 10153370032836237450)))))))))
noncomputable def g9_3 : Tree := (.node (.node (.node (.node (.node (.node (.node (.node (.leaf 6561287835195489365) (.leaf 894075042817107949)) (.node (.leaf 14792659518506222326) (.leaf 10134519291712611601))) (.node (.node (.leaf 18400807706015794628) (.leaf 4120183351549102367)) (.node (.leaf 13601564719823521397) (.leaf 6808022333677673413)))) (.node (.node (.node (.leaf 7022568066828038265) (.leaf 10917424070375430555)) (.node (.leaf 10264292065114905829) (.leaf 13811777206034520630))) (.node (.node (.leaf 5118092101703612756) (.leaf 6166185332211841417)) (.node (.leaf 6946242439989035244) (.leaf 14231302320151211217))))) (.node (.node (.node (.node (.leaf 4831792525328436566) (.leaf 5066225376009023864)) (.node (.leaf 13020420847027983101) (.leaf 7826616145346521272))) (.node (.node (.leaf 14028971098099630463) (.leaf 96495923293435950)) (.node (.leaf 4028912247909405883) (.leaf 12461984106221259528)))) (.node (.node (.node (.leaf 2629012433932697562) (.leaf 13271964075712961837)) (.node (.leaf 13393854537065626201) (.leaf 7104030562664914654))) (.node (.node (.leaf 1630782369149702207) (.leaf 18093033882255200496)) (.node (.leaf 8215308212036952122) (.leaf 7400119174891824705)))))) (.node (.node (.node (.node (.node (.leaf 421958988151566092) (.leaf 16925202435597202010)) (.node (.leaf 1036282954718159713) (.leaf 8034747908211224530))) (.node (.node (.leaf 15209927935585992164) (.leaf 13759793601387790187)) (.node (.leaf 1112249456768447465) (.leaf 2585932741497936755)))) (.node (.node (.node (.leaf 12476459306474308171) (.leaf 2370913228013865665)) (.node (.leaf 5740274767717396113) (.leaf 15781995784882365179))) (.node (.node (.leaf 4287023636936959208) (.leaf 14489101666116604351)) (.node (.leaf 18314832203022052066) (.leaf 4756662861374339941))))) (.node (.node (.node (.node (.leaf 5853808932636989894) (.leaf 3361748354221149646)) (.node (.leaf 7897033283134014773) (.leaf 18012275607979988644))) (.node (.node (.leaf 16999857142590580482) (.leaf 6265548216972389673)) (.node (.leaf 13848695570859739288) (.leaf 6644237942976362320)))) (.node (.node (.node (.leaf 15768677275571769335) (.leaf 14863962359995644008)) (.node (.leaf 9977754779598817180) (.leaf 13107065070203109259))) (.node (.node (.leaf 17083719080804644363) (.leaf 3838690679541969338)) (.node (.leaf 14422534386510161751) (.leaf 8724121002203929388))))))) (.node (.node (.node (.node (.node (.node (.leaf 16370098614515290618) (.leaf 4641286652841741546)) (.node (.leaf 8511624542822102042) (.leaf 17320376957296289908))) (.node (.node (.leaf 8922851778124139408) (.leaf 8681810367837108374)) (.node (.leaf 1424527059398907830) (.leaf 11712935085740926713)))) (.node (.node (.node (.leaf 6747389410759914546) (.leaf 17491492361243851854)) (.node (.leaf 11862618123803989008) (.leaf 15648413601627778324))) (.node (.node (.leaf 11995810160593058355) (.leaf 4063209360672096626)) (.node (.leaf 11173503736735568851) (.leaf 12220592395992434680))))) (.node (.node (.node (.node (.leaf 2291997791216193630) (.leaf 1286600742366074154)) (.node (.leaf 14997294906741092270) (.leaf 2206471680506698112))) (.node (.node (.leaf 8794648087624739584) (.leaf 11581848055920355811)) (.node (.leaf 1550737156447107774) (.leaf 9004418561357884207)))) (.node (.node (.node (.leaf 14681091247496128133) (.leaf 18296007747164445927)) (.node (.leaf 12104612466168488216) (.leaf 14273728174237960338))) (.node (.node (.leaf 2709221934595700425) (.leaf 4362129922851722381)) (.node (.leaf 3733887256320210246) (.leaf 17900468145264931804)))))) (.node (.node (.node (.node (.node (.leaf 5948965430846325692) (.leaf 5270605627456091336)) (.node (.leaf 11354826480686459349) (.leaf 12924203739195781389))) (.node (.node (.leaf 5252583779460203783) (.leaf 13685505052305446421)) (.node (.leaf 9473183630234172957) (.leaf 3419980685325712102)))) (.node (.node (.node (.leaf 15345744231555590270) (.leaf 9644296560799536084)) (.node (.leaf 11299549157517774579) (.leaf 5341985581993975791))) (.node (.node (.leaf 17277792239421687868) (.leaf 8615311790076136974)) (.node (.leaf 2507248782886192707) (.leaf 13518440923927950550))))) (.node (.node (.node (.node (.leaf 3654614627008769344) (.leaf 1311161213552796098)) (.node (.leaf 2754939665085310129) (.leaf 17569624873102617218))) (.node (.node (.leaf 16490478192137226506) (.leaf 9248861470706658037)) (.node (.leaf 1964465650275268168) (.leaf 12353498267936554598)))) (.node (.node (.node (.leaf 4409924281805408731) (.leaf 6293748774968214584)) (.node (.leaf 10864486146534726184) (.leaf 17737927736580408478))) (.node (.node (.leaf 9858362321031667591) (.leaf 16633711268468661437)) (.node (.leaf 6866105663516553268) (.leaf 13451729785893559243)))))))) (.node (.node (.node (.node (.node (.node (.node (.leaf 1893298180424717104) (.leaf 10717248404473134007)) (.node (.leaf 962005131121036396) (.leaf 10561901074470515680))) (.node (.node (.leaf 12744845045279153679) (.leaf 11111507499860550519)) (.node (.leaf 4230689398970764818) (.leaf 1203513761641776116)))) (.node (.node (.node (.leaf 349218872593376162) (.leaf 7638589678705745444)) (.node (.leaf 3065363170573249411) (.leaf 3566260980782102383))) (.node (.node (.leaf 3265063229982750090) (.leaf 17835108507481346484)) (.node (.leaf 15147764321095758535) (.leaf 5566497450528281503))))) (.node (.node (.node (.node (.leaf 14147218730586530912) (.leaf 1830641895079548977)) (.node (.leaf 15907246789322679645) (.leaf 8319381899403561753))) (.node (.node (.leaf 9697815999201469859) (.leaf 9071968076293773487)) (.node (.leaf 18037587660758263978) (.leaf 15532317069930754655)))) (.node (.node (.node (.leaf 6516359862607032956) (.leaf 664364354741850528)) (.node (.leaf 16708074006643695107) (.leaf 9359009683752732611))) (.node (.node (.leaf 3125756673623852181) (.leaf 14077680414875225605)) (.node (.leaf 506661257992960076) (.leaf 7488795864223002366)))))) (.node (.node (.node (.node (.node (.leaf 9771756204233669957) (.leaf 586323674271045437)) (.node (.leaf 10615335048487391847) (.leaf 6420720851628067689))) (.node (.node (.leaf 14409996395411193927) (.leaf 11043322408172904334)) (.node (.leaf 8426062698434497961) (.leaf 16243442064377960482)))) (.node (.node (.node (.leaf 46908804642384281) (.leaf 7515306412708225315)) (.node (.leaf 18213650011225134857) (.leaf 4683876815070358700))) (.node (.node (.leaf 11507838650019355992) (.leaf 12770310276405755191)) (.node (.leaf 12541344546505842074) (.leaf 10428588749277096521))))) (.node (.node (.node (.node (.leaf 1703000982152421455) (.leaf 5818458973976529631)) (.node (.leaf 12653549562424132560) (.leaf 1464897884935849637))) (.node (.node (.leaf 2147098610999783174) (.leaf 11957737395930352160)) (.node (.leaf 14721185224130109900) (.leaf 14621764992138320506)))) (.node (.node (.node (.leaf 2445671372408532091) (.leaf 10306856839430550846)) (.node (.leaf 5028558673601163396) (.leaf 9097264888123168202))) (.node (.node (.leaf 151769526289470832) (.leaf 2089079437424151876)) (.node (.leaf 13935720302196185293) (.leaf 7957203725139716946))))))) (.node (.node (.node (.node (.node (.node (.leaf 7334711677362787799) (.leaf 7223274405149956569)) (.node (.leaf 10739582108559700763) (.leaf 448870512767421478))) (.node (.node (.leaf 15064444873290087872) (.leaf 8122455136879859351)) (.node (.leaf 7758666892629234198) (.leaf 5643913861658738831)))) (.node (.node (.node (.leaf 9213801181841526955) (.leaf 9573546160257654841)) (.node (.leaf 3184382823280153222) (.leaf 16791246835092529331))) (.node (.node (.leaf 6017966775306109903) (.leaf 9923039227258095437)) (.node (.leaf 17035432322436896374) (.leaf 9374769897666889397))))) (.node (.node (.node (.node (.leaf 4494433070662384421) (.leaf 17630226607039162667)) (.node (.leaf 240989299385532061) (.leaf 820429920328500298))) (.node (.node (.leaf 8165200557319480744) (.leaf 5521279098074048355)) (.node (.leaf 2971600689695977060) (.leaf 1798364289323530529)))) (.node (.node (.node (.leaf 2821687423788975485) (.leaf 3506845193081298926)) (.node (.leaf 16510466012991488477) (.leaf 4572234245181936723))) (.node (.node (.leaf 12304078418548911470) (.leaf 5412278922705337586)) (.node (.leaf 16089237235832436254) (.leaf 14922895792343676833)))))) (.node (.node (.node (.node (.node (.leaf 11440728908882015743) (.leaf 10178763343644520732)) (.node (.leaf 16755556626413413611) (.leaf 15386694553595363580))) (.node (.node (.leaf 2940247444991056388) (.leaf 10086157708018659544)) (.node (.leaf 15946532560085556503) (.leaf 16356942345112759889)))) (.node (.node (.node (.leaf 6387370021647065747) (.leaf 12145037402378604466)) (.node (.leaf 12897851649269382951) (.leaf 17694985818482074241))) (.node (.node (.leaf 11804667796552398658) (.leaf 10981163537174481211)) (.node (.leaf 13129696874363042157) (.leaf 758373033338452993))))) (.node (.node (.node (.node (.leaf 15476659423684774567) (.leaf 3766298871070758796)) (.node (.leaf 8462710053329398950) (.leaf 7619185631819070356))) (.node (.node (.leaf 15569278839192863330) (.leaf 17220550061392760667)) (.node (.leaf 16004983352460247571) (.leaf 6065394590242857564)))) (.node (.node (.node (.leaf 16142531745901100785) (.leaf 10495801347863578797)) (.node (.leaf 11612026907986077320) (.leaf 4936185265733812586))) (.node (.node (.leaf 13227170119106321633) (.leaf 7142213758572039344)) (.node (.leaf 17415319643879973817) (.leaf 3958269982217752433)))))))))
noncomputable def g9 : G := ⟨g9_0, g9_1, g9_2, g9_3, ⟨16703006749339336130, 14673199672911356720, 5984212033940315198⟩⟩

noncomputable def g10_0 : Tree := (.node (.node (.node (.node (.node (.node (.node (.node (.leaf 192161084409973854) (.leaf 1033318428544969251)) (.node (.leaf 12245192337599078954) (.leaf 16798794393021101279))) (.node (.node (.leaf 18253814936157636059) (.leaf 17352529224806255890)) (.node (.leaf 12375791606097406863) (.leaf 7485939926152528684)))) (.node (.node (.node (.leaf 5461170853188208586) (.leaf 11635083951108444120)) (.node (.leaf 16027224499883949314) (.leaf 6934559736714979565))) (.node (.node (.leaf 3741955435321465241) (.leaf 13953014824866208278)) (.node (.leaf 12073497029628754377) (.leaf 13493710469666597351))))) (.node (.node (.node (.node (.leaf 16910140313379794150) (.leaf 11934771386322515838)) (.node (.leaf 479582384021555544) (.leaf 2438838841395254149))) (.node (.node (.leaf 7688500634458409525) (.leaf 13025854346008288483)) (.node (.leaf 2312925355491498803) (.leaf 16388058205984530442)))) (.node (.node (.node (.leaf 9043806901924967914) (.leaf 15142762107613549607)) (.node (.leaf 9739074967177125163) (.leaf 10110669637513019833))) (.node (.node (.leaf 3847074041673952000) (.leaf 14411022707054136303)) (.node (.leaf 10978122417803504804) (.leaf 2241175407069758350)))))) (.node (.node (.node (.node (.node (.leaf 14815005489349235091) (.leaf 9235073569857586017)) (.node (.leaf 14770628265263427446) (.leaf 18023579054726214285))) (.node (.node (.leaf 10399800464770430483) (.leaf 11228441527149633512)) (.node (.leaf 2663576151211431276) (.leaf 18121470962401429929)))) (.node (.node (.node (.leaf 15532482038911174219) (.leaf 12565337778774156881)) (.node (.leaf 10560886376429385824) (.leaf 14648678256067979723))) (.node (.node (.leaf 18187146081364455764) (.leaf 11335550205397804100)) (.node (.leaf 17071918333241912043) (.leaf 5791404459833380522))))) (.node (.node (.node (.node (.leaf 1204553577021685498) (.leaf 14044682965315173317)) (.node (.leaf 8751740296797632830) (.leaf 393786506094771122))) (.node (.node (.leaf 13643301300320350067) (.leaf 17986491732842022258)) (.node (.leaf 4082542483235864459) (.leaf 15242008505997455568)))) (.node (.node (.node (.leaf 17492696646193712838) (.leaf 11139220281097600151)) (.node (.leaf 3112410413624570453) (.leaf 4306521946498657944))) (.node (.node (.leaf 2909491499011162061) (.leaf 6468933130968205401)) (.node (.leaf 853355433004222246) (.leaf 18441560808156168866))))))) (.node (.node (.node (.node (.node (.node (.leaf 8272369121297300691) (.leaf 17200759021255085090)) (.node (.leaf 1226483701329067140) (.leaf 3651919061693825289))) (.node (.node (.leaf 9656360342964607310) (.leaf 17282944389244390251)) (.node (.leaf 12913124649239600434) (.leaf 6245128712556390173)))) (.node (.node (.node (.leaf 9624326389127268278) (.leaf 17436899165275233567)) (.node (.leaf 15944798094267651441) (.leaf 10891890112678993536))) (.node (.node (.leaf 13046945900594209529) (.leaf 13222015508416504078)) (.node (.leaf 7053919794999990929) (.leaf 17526606163846348700))))) (.node (.node (.node (.node (.leaf 5541490850629862524) (.leaf 7421261837586505858)) (.node (.leaf 15648517004018321088) (.leaf 2823241734971430590))) (.node (.node (.leaf 8591138587399736033) (.leaf 3753742208681096767)) (.node (.leaf 2964761606854114992) (.leaf 12674756240461064247)))) (.node (.node (.node (.leaf 13778939497803891424) (.leaf 11094769083352733519)) (.node (.leaf 12699367828500449645) (.leaf 555138268555536248))) (.node (.node (.leaf 14173244547020241484) (.leaf 3977519900599801820)) (.node (.leaf 11490461953836997027) (.leaf 8359644330926224055)))))) (.node (.node (.node (.node (.node (.leaf 12782397079979459523) (.leaf 963191604767572015)) (.node (.leaf 16615015929427450229) (.leaf 308165109378616703))) (.node (.node (.leaf 1783120314242633559) (.leaf 5278432013075676693)) (.node (.leaf 5664920977038299994) (.leaf 639373189613950878)))) (.node (.node (.node (.leaf 7624427211800470465) (.leaf 6528592316425799439)) (.node (.leaf 7174555471952375656) (.leaf 13887300970038794941))) (.node (.node (.leaf 9821796187408409551) (.leaf 12864465832706149959)) (.node (.leaf 17740771901396443681) (.leaf 6001456072058810555))))) (.node (.node (.node (.node (.leaf 1401289229890216703) (.leaf 4771413979138012118)) (.node (.leaf 8942924799792477540) (.leaf 10473175056012527227))) (.node (.node (.leaf 2053990370701680515) (.leaf 1951374535466601971)) (.node (.leaf 2166137813939512309) (.leaf 1313621308117380133)))) (.node (.node (.node (.leaf 8167597339425066981) (.leaf 1615327116689102472)) (.node (.leaf 6658792778814911418) (.leaf 4901816398460471456))) (.node (.node (.leaf 7071481730398905774) (.leaf 1539015908620793624)) (.node (.leaf 2124075034376372323) (.leaf 11975088000835799072)))))))) (.node (.node (.node (.node (.node (.node (.node (.leaf 12412566003039578348) (.leaf 1692585388818821524)) (.node (.leaf 14074214025701625255) (.leaf 3088835283432281588))) (.node (.node (.leaf 14445834393465872395) (.leaf 6320848846662414801)) (.node (.leaf 4721051187472420532) (.leaf 13340749930154375154)))) (.node (.node (.node (.leaf 2807403890869420487) (.leaf 3247421105326436348)) (.node (.leaf 6349030933445924429) (.leaf 17857395910652154129))) (.node (.node (.leaf 4334407786093429776) (.leaf 4830799035278983864)) (.node (.leaf 10313129584137200909) (.leaf 8704164972314360376))))) (.node (.node (.node (.node (.leaf 14213758138097816412) (.leaf 11732209241253279301)) (.node (.leaf 8040612334407127321) (.leaf 14896570625953598117))) (.node (.node (.leaf 17647688304275301531) (.leaf 14498696732057183809)) (.node (.leaf 17917931256736142540) (.leaf 9187445612742136046)))) (.node (.node (.node (.leaf 7231827479902542914) (.leaf 7320455443630736945)) (.node (.leaf 3232013613859041307) (.leaf 4236391428300945648))) (.node (.node (.leaf 4649400157396704725) (.leaf 16460574793555246339)) (.node (.leaf 14919163634504077233) (.leaf 15484192582789326408)))))) (.node (.node (.node (.node (.node (.leaf 8463286011307239906) (.leaf 12471487353192899638)) (.node (.leaf 13470993037325816321) (.leaf 11414687284771824631))) (.node (.node (.leaf 15811522062611479537) (.leaf 4583261464596863494)) (.node (.leaf 928112258657309258) (.leaf 7772052866533484500)))) (.node (.node (.node (.leaf 10247451172578640253) (.leaf 10871874290690996106)) (.node (.leaf 5194369709296555225) (.leaf 9344782632198616737))) (.node (.node (.leaf 16146959651762660871) (.leaf 15716824796288558584)) (.node (.leaf 17712290504455390414) (.leaf 16764031247701565831))))) (.node (.node (.node (.node (.leaf 14325024777722506090) (.leaf 1910808081503)) (.node (.leaf 6603430683508552489) (.leaf 15328770503170608105))) (.node (.node (.leaf 5042603696143252264) (.leaf 111470777923844445)) (.node (.leaf 5171535286737311423) (.leaf 15052846203706837274)))) (.node (.node (.node (.leaf 7786398710221814956) (.leaf 6084456898448652712)) (.node (.leaf 16110141331589860284) (.leaf 11295261863032656012))) (.node (.node (.leaf 4458122598401901638) (.leaf 8516219711084257782)) (.node (.leaf 16522522127453838137) (.leaf 16657473437411103805))))))) (.node (.node (.node (.node (.node (.node (.leaf 7854730284916899642) (.leaf 1107424405919510210)) (.node (.leaf 15924709066658687059) (.leaf 9461488011709396048))) (.node (.node (.leaf 11887624205054558387) (.leaf 3439926484095136410)) (.node (.leaf 13593718485625264257) (.leaf 13728064239465473455)))) (.node (.node (.node (.leaf 5699452412975025298) (.leaf 8353265116968520410)) (.node (.leaf 12269290567006146658) (.leaf 11568068034921390039))) (.node (.node (.leaf 1449859124008718907) (.leaf 6842302225500364445)) (.node (.leaf 5576291611870337032) (.leaf 5969067443919232116))))) (.node (.node (.node (.node (.leaf 766444128913191948) (.leaf 3318186242040429129)) (.node (.leaf 17112515522038886866) (.leaf 3896218688877146334))) (.node (.node (.leaf 15633037317611203077) (.leaf 13261228611926580032)) (.node (.leaf 4148718494125202372) (.leaf 16320932256496599612)))) (.node (.node (.node (.leaf 6875646691050945796) (.leaf 2539802313181221187)) (.node (.leaf 16215284685696605295) (.leaf 5351590591369890935))) (.node (.node (.leaf 14606001508420839982) (.leaf 9148781857317432677)) (.node (.leaf 12165654920579776535) (.leaf 9923258301097833899)))))) (.node (.node (.node (.node (.node (.leaf 5082381371487377520) (.leaf 4506934758573727688)) (.node (.leaf 10714085159597194772) (.leaf 8884692927086426203))) (.node (.node (.leaf 248005612187258982) (.leaf 672210957064462075)) (.node (.leaf 2704699625848084345) (.leaf 2515940555210603828)))) (.node (.node (.node (.leaf 13116673706182362478) (.leaf 15397071475010590000)) (.node (.leaf 7982812746821821468) (.leaf 10781369878360680786))) (.node (.node (.leaf 10596140432474060285) (.leaf 18320322304522000518)) (.node (.leaf 11758017946897781732) (.leaf 10172882867408301456))))) (.node (.node (.node (.node (.leaf 1893918052108309022) (.leaf 15088778931977875125)) (.node (.leaf 3573742753214737511) (.leaf 10077980508395331620))) (.node (.node (.leaf 10011753445593162089) (.leaf 9571400392277455661)) (.node (.leaf 8844224567096109974) (.leaf 3526835097255131285)))) (.node (.node (.node (.leaf 1830707105885056415) (.leaf 8126548348642832045)) (.node (.leaf 6126246269502162262) (.leaf 9412954593909222793))) (.node (.node (.leaf 6725294491764459774) (.leaf 7527026033758878374)) (.node (.leaf 5881355904936746717) (.leaf 16988008119788939130)))))))))
noncomputable def g10_1 : Tree := (.node (.node (.node (.node (.node (.node (.node (.node (.leaf 16620180768708174136) (.leaf 10339343346676942200)) (.node (.leaf 5058061449640751271) (.leaf 160427886842421800))) (.node (.node (.leaf 17414337388161447897) (.leaf 10727377356684633597)) (.node (.leaf 18322749590590308156) (.leaf 7731749711829208666)))) (.node (.node (.node (.leaf 14791316918028724237) (.leaf 894835714693979080)) (.node (.leaf 12734421984402844485) (.leaf 649720531103423106))) (.node (.node (.leaf 15042560872303683366) (.leaf 7305467695957075406)) (.node (.leaf 14115843866838292311) (.leaf 11528309388770592584))))) (.node (.node (.node (.node (.leaf 16073846824652113554) (.leaf 6968029403465067289)) (.node (.leaf 25924001596622557) (.leaf 18263287368680645066))) (.node (.node (.leaf 11720003357325288028) (.leaf 18058941983678306709)) (.node (.leaf 942713319182180155) (.leaf 9237091451614363741)))) (.node (.node (.node (.leaf 7358743242340641331) (.leaf 10143225092775386885)) (.node (.leaf 9121210965518562125) (.leaf 17990741204064412777))) (.node (.node (.leaf 7854556580946198495) (.leaf 17155111980276651522)) (.node (.leaf 4462677101358564049) (.leaf 6758043032196830276)))))) (.node (.node (.node (.node (.node (.leaf 15650762814559589428) (.leaf 4148457837926911568)) (.node (.leaf 8602726521519041395) (.leaf 10840625911376688560))) (.node (.node (.leaf 15219111713807365290) (.leaf 16215351210583878990)) (.node (.leaf 1116769798908306816) (.leaf 12013351936531834174)))) (.node (.node (.node (.leaf 2176386753693503798) (.leaf 5441805419015688358)) (.node (.leaf 7953444341930717599) (.leaf 2408845162401379802))) (.node (.node (.leaf 7670504156571609794) (.leaf 11121884478320942796)) (.node (.leaf 11808547772908125699) (.leaf 12407221208356893421))))) (.node (.node (.node (.node (.leaf 11956475335693613649) (.leaf 2355660670689429871)) (.node (.leaf 16382380113756205527) (.leaf 2813841150172635667))) (.node (.node (.leaf 14592892671379561684) (.leaf 2783168786742146440)) (.node (.leaf 9018945159409650955) (.leaf 1312945880979454078)))) (.node (.node (.node (.leaf 5235630359010597374) (.leaf 2237558221535645089)) (.node (.leaf 3084862250275496789) (.leaf 1938401838693046941))) (.node (.node (.leaf 13709208837769715866) (.leaf 12201821765133472647)) (.node (.leaf 17243909456190059557) (.leaf 10380983089625111273))))))) (.node (.node (.node (.node (.node (.node (.leaf 6213947727727520144) (.leaf 4790267690900900096)) (.node (.leaf 7212395796113148780) (.leaf 13819301442714769089))) (.node (.node (.leaf 1177149711660596421) (.leaf 7140013836546489399)) (.node (.leaf 9446964496815386772) (.leaf 9173201802070489451)))) (.node (.node (.node (.leaf 3792259505844355329) (.leaf 18098692892679743463)) (.node (.leaf 9596519943885996947) (.leaf 17511778262592440498))) (.node (.node (.leaf 1009372798613472243) (.leaf 12365742766643545018)) (.node (.leaf 15343759105510392346) (.leaf 17035274631238963172))))) (.node (.node (.node (.node (.leaf 8011611286970690052) (.leaf 500987773930853904)) (.node (.leaf 4223621278438660202) (.leaf 16679512126457685165))) (.node (.node (.leaf 17788473056595710763) (.leaf 15779936050728011823)) (.node (.leaf 16508030273321291366) (.leaf 4539467735137059035)))) (.node (.node (.node (.leaf 1522910625901990663) (.leaf 2615208954064994172)) (.node (.leaf 17703039091829532745) (.leaf 91400768704631494))) (.node (.node (.leaf 6811751916476253359) (.leaf 6454505253869455699)) (.node (.leaf 14317631520548985665) (.leaf 4074828688890126937)))))) (.node (.node (.node (.node (.node (.leaf 15520994653159001329) (.leaf 8968309666649857421)) (.node (.leaf 6042660761688602872) (.leaf 7582622308322968760))) (.node (.node (.leaf 13637243492043779536) (.leaf 5038446221635409553)) (.node (.leaf 12807515078363457603) (.leaf 9716135266257811596)))) (.node (.node (.node (.leaf 18433866172389203220) (.leaf 3501129463520285556)) (.node (.leaf 14768757517560628423) (.leaf 10647695429742646567))) (.node (.node (.leaf 7481699948221361317) (.leaf 5760535140236403614)) (.node (.leaf 4569666897377300404) (.leaf 11883033819604736188))))) (.node (.node (.node (.node (.leaf 16734845874302321705) (.leaf 12863151040160441096)) (.node (.leaf 8312208923375399755) (.leaf 11234321609599741815))) (.node (.node (.leaf 8774750272303345432) (.leaf 16458016955501249014)) (.node (.leaf 512456053301416255) (.leaf 4958176066159770025)))) (.node (.node (.node (.leaf 277273466943670671) (.leaf 13236032612028143522)) (.node (.leaf 14480359564937826262) (.leaf 9810146466437985312))) (.node (.node (.leaf 8245611441321613668) (.leaf 2960027307368769952)) (.node (.leaf 10001446825249529526) (.leaf 15432198388343861625)))))))) (.node (.node (.node (.node (.node (.node (.node (.leaf 13087780087216503960) (.leaf 6618311662604863029)) (.node (.leaf 13294825889344038590) (.leaf 13476805212888794763))) (.node (.node (.leaf 4657750985732713388) (.leaf 399232473491847935)) (.node (.leaf 17101137515031609645) (.leaf 4875740361372990282)))) (.node (.node (.node (.leaf 1788379855404599063) (.leaf 13140917299619429091)) (.node (.leaf 3610014133393185213) (.leaf 6394120152722619742))) (.node (.node (.leaf 6519077675840655372) (.leaf 2551364576700533681)) (.node (.leaf 16933948646436594152) (.leaf 17351559514427848379))))) (.node (.node (.node (.node (.leaf 15991021072757504790) (.leaf 14862556481213186354)) (.node (.leaf 7531865058110106323) (.leaf 2699628156079216836))) (.node (.node (.leaf 13858952002212630691) (.leaf 15096697943663711592)) (.node (.leaf 9890976159808040074) (.leaf 4359958813756723849)))) (.node (.node (.node (.leaf 9743228014385134454) (.leaf 11000396338623494503)) (.node (.leaf 8462056263389103903) (.leaf 8367255505928917714))) (.node (.node (.leaf 5848046147829288198) (.leaf 10740590121652346377)) (.node (.leaf 3679240545963649394) (.leaf 5827167051130463242)))))) (.node (.node (.node (.node (.node (.leaf 642450021946863605) (.leaf 13027786587857474755)) (.node (.leaf 12561253256920036340) (.leaf 6176075057452006273))) (.node (.node (.leaf 12097333842433196187) (.leaf 11386546581606838557)) (.node (.leaf 1871732813531574911) (.leaf 3325271250982575439)))) (.node (.node (.node (.leaf 16165556464122449145) (.leaf 15397362850185904124)) (.node (.leaf 13374154748713552676) (.leaf 1253140645631747605))) (.node (.node (.leaf 9378295951984427608) (.leaf 11560995779659109437)) (.node (.leaf 11334024907024538672) (.leaf 14642276899857517585))))) (.node (.node (.node (.node (.leaf 18180761396468528926) (.leaf 3178293543037890097)) (.node (.leaf 5939130201053773422) (.leaf 8163160757531991904))) (.node (.node (.leaf 9581455899396743388) (.leaf 1986639352536355296)) (.node (.leaf 9348172371089358427) (.leaf 17499315598292792898)))) (.node (.node (.node (.leaf 12672095911739354858) (.leaf 14534824473151846839)) (.node (.leaf 15607266543450182998) (.leaf 10926450282100227564))) (.node (.node (.leaf 16831935031467898469) (.leaf 11627976249930647428)) (.node (.leaf 17604610864827148760) (.leaf 5618223731912049521))))))) (.node (.node (.node (.node (.node (.node (.leaf 5496303794639560149) (.leaf 1716087693007726108)) (.node (.leaf 8872633840395976086) (.leaf 15161096039636807203))) (.node (.node (.leaf 8685721698255572101) (.leaf 10212002790465040192)) (.node (.leaf 14254958291267920036) (.leaf 7834799413446679311)))) (.node (.node (.node (.leaf 857793142685420274) (.leaf 352461093517089771)) (.node (.leaf 10457528947283767525) (.leaf 4753049982369101610))) (.node (.node (.leaf 13941815458558040098) (.leaf 13556939551025923470)) (.node (.leaf 11057037641413621675) (.leaf 3145683508650593868))))) (.node (.node (.node (.node (.leaf 5372247966639775667) (.leaf 10278571274613639408)) (.node (.leaf 3926684511422013614) (.leaf 2945653313023238585))) (.node (.node (.leaf 3834592178494549117) (.leaf 12285020473469085899)) (.node (.leaf 7028952989422544417) (.leaf 12938212395927242823)))) (.node (.node (.node (.leaf 16311896314355823354) (.leaf 17924140821443864558)) (.node (.leaf 5658738406708581754) (.leaf 13982368817729209682))) (.node (.node (.leaf 17810787299410161198) (.leaf 4319683495060363885)) (.node (.leaf 776201060342576796) (.leaf 3293442170241026694)))))) (.node (.node (.node (.node (.node (.leaf 14194067837486075289) (.leaf 15835383998547979361)) (.node (.leaf 1642367900117110883) (.leaf 6649763778434249567))) (.node (.node (.leaf 10523434303980543600) (.leaf 6294769326316815049)) (.node (.leaf 2050857069623328786) (.leaf 16057385208373506132)))) (.node (.node (.node (.leaf 6070247714570225101) (.leaf 13466617900358153333)) (.node (.leaf 5127306049615917691) (.leaf 16862477982545442873))) (.node (.node (.leaf 2131352009749933493) (.leaf 1501217875009212803)) (.node (.leaf 11295294635916036800) (.leaf 6868326517302426863))))) (.node (.node (.node (.node (.leaf 15893194850365545698) (.leaf 12149618985794982607)) (.node (.leaf 5278156969609628584) (.leaf 12522125344893058495))) (.node (.node (.leaf 10018717713484244012) (.leaf 8799325730492140254)) (.node (.leaf 14393200364208532887) (.leaf 1374196081931091686)))) (.node (.node (.node (.leaf 3580831169916433691) (.leaf 7102368496127332321)) (.node (.leaf 14959210002597418810) (.leaf 3990523136699180870))) (.node (.node (.leaf 8087057586628171618) (.leaf 8570410701452901115)) (.node (.leaf 3458390008116962295) (.leaf 2520538699101199374)))))))))
noncomputable def g10_2 : Tree := (.node (.node (.node (.node (.node (.node (.node (.node (.leaf 17627031972844598171) (.leaf 9545093663071697752)) (.node (.leaf 2666591392741323510) (.leaf 15533845830470436847))) (.node (.node (.leaf 10424236436870678051) (.leaf 16690920901523858194)) (.node (.leaf 14647584793672228655) (.leaf 16217424015630281360)))) (.node (.node (.node (.leaf 17314732200908842661) (.leaf 14483524995628130770)) (.node (.leaf 9489155661644977250) (.leaf 14034091836647305274))) (.node (.node (.leaf 3784640730692549981) (.leaf 4937681992884682033)) (.node (.leaf 17970260734629539600) (.leaf 10580078819325063104))))) (.node (.node (.node (.node (.leaf 14966620937599181975) (.leaf 6299068367672194603)) (.node (.leaf 16434817050700023809) (.leaf 3341940384398866564))) (.node (.node (.leaf 18346923196617292268) (.leaf 16309966615540910654)) (.node (.leaf 11026752283992642452) (.leaf 6814675599201764477)))) (.node (.node (.node (.leaf 11760393922366610529) (.leaf 13670086066823634667)) (.node (.leaf 3918859449562378630) (.leaf 12894110748725224554))) (.node (.node (.leaf 12472271790989499929) (.leaf 7071075452076274675)) (.node (.leaf 17420391663083337065) (.leaf 8012224255291120002)))))) (.node (.node (.node (.node (.node (.leaf 15726560327778417602) (.leaf 588648581915253038)) (.node (.leaf 12779288295799455805) (.leaf 14798380781942060739))) (.node (.node (.leaf 14859971753385412708) (.leaf 2789803412788518275)) (.node (.leaf 12166547435894244330) (.leaf 8403817438537116875)))) (.node (.node (.node (.leaf 17040480865221710045) (.leaf 675316509725923312)) (.node (.leaf 11022523844556058157) (.leaf 17293171257415384160))) (.node (.node (.leaf 9823170296600362018) (.leaf 2219071780988037499)) (.node (.leaf 149203013753700084) (.leaf 7234639242841923679))))) (.node (.node (.node (.node (.leaf 10864531730823556037) (.leaf 3549459440654955014)) (.node (.leaf 14082648967264690522) (.leaf 6478536468284266291))) (.node (.node (.leaf 15387787899692562424) (.leaf 8543542228473779244)) (.node (.leaf 13387369097968848820) (.leaf 9234396265040989002)))) (.node (.node (.node (.leaf 2102395425312436973) (.leaf 16563765655732577159)) (.node (.leaf 16579416859534749813) (.leaf 4199955888901663150))) (.node (.node (.leaf 1768420517056302872) (.leaf 951333080223670799)) (.node (.leaf 18053537085616071129) (.leaf 4993489137437819341))))))) (.node (.node (.node (.node (.node (.node (.leaf 16763249281696835647) (.leaf 228032410479194937)) (.node (.leaf 2078226524874004819) (.leaf 14619566180652406020))) (.node (.node (.leaf 2328871106231838244) (.leaf 2945473010562318822)) (.node (.leaf 3683901813415452623) (.leaf 4368075505682949467)))) (.node (.node (.node (.leaf 10346713243535852126) (.leaf 397230465775035974)) (.node (.leaf 6266031685674981260) (.leaf 728866099714851926))) (.node (.node (.leaf 17728532885004413945) (.leaf 9379902043379058579)) (.node (.leaf 3119849171172694992) (.leaf 8290028954029701554))))) (.node (.node (.node (.node (.leaf 15286072487566162144) (.leaf 7573861666572117031)) (.node (.leaf 4838452819165657451) (.leaf 3829921822543532494))) (.node (.node (.leaf 1580997072160885165) (.leaf 14396504241698491859)) (.node (.leaf 7280608515770959015) (.leaf 5778917359701360712)))) (.node (.node (.node (.leaf 9942580208356683160) (.leaf 16065515842120794365)) (.node (.leaf 2300310138214025757) (.leaf 8749621007278605595))) (.node (.node (.leaf 14241938299045681464) (.leaf 1445978213955986826)) (.node (.leaf 6707891355510602429) (.leaf 13790479014885986647)))))) (.node (.node (.node (.node (.node (.leaf 11602366076889764820) (.leaf 3634608293302267354)) (.node (.leaf 7984583406477441100) (.leaf 4461163794677446508))) (.node (.node (.leaf 7519553577929664460) (.leaf 15567727576646958478)) (.node (.leaf 9797215346402413073) (.leaf 1151085119119418028)))) (.node (.node (.node (.leaf 11191718324395673746) (.leaf 15914532455247542225)) (.node (.leaf 4803542876947788811) (.leaf 11296654129530459363))) (.node (.node (.leaf 4036482174343220762) (.leaf 6028345117330418825)) (.node (.leaf 4143436129840869576) (.leaf 14729974056387769779))))) (.node (.node (.node (.node (.leaf 2410740665327626235) (.leaf 10776371282861455089)) (.node (.leaf 17494196096204240005) (.leaf 6124895672834828926))) (.node (.node (.leaf 14509772897067631359) (.leaf 16194459883656067231)) (.node (.leaf 8900403996915095151) (.leaf 4025584697920591189)))) (.node (.node (.node (.leaf 6364975572501938982) (.leaf 8604540880985875509)) (.node (.leaf 2481833961960165662) (.leaf 18206853885491773239))) (.node (.node (.leaf 4469119677486524438) (.leaf 14140843974652577825)) (.node (.leaf 13853232418390755104) (.leaf 15266142735205863280)))))))) (.node (.node (.node (.node (.node (.node (.node (.leaf 5224129141031473793) (.leaf 2592076422926394627)) (.node (.leaf 1958911907595193257) (.leaf 16381003300289283813))) (.node (.node (.leaf 13966310405599776871) (.leaf 11331521809212514546)) (.node (.leaf 15832567204901745934) (.leaf 5930619164422717276)))) (.node (.node (.node (.leaf 10202635360025484021) (.leaf 8464707252757847009)) (.node (.leaf 4293149567017494192) (.leaf 10722043131897179970))) (.node (.node (.leaf 15931797558562408746) (.leaf 13005489746079912805)) (.node (.leaf 17214461913506212373) (.leaf 18093856480622414774))))) (.node (.node (.node (.node (.leaf 13189541385867841559) (.leaf 1932346445954743183)) (.node (.leaf 18234510019709827509) (.leaf 13564145691162448073))) (.node (.node (.leaf 6562793443469826132) (.leaf 8230916861376446652)) (.node (.leaf 12676928707863290380) (.leaf 15451253908724655102)))) (.node (.node (.node (.leaf 505172698323928814) (.leaf 3062009004852183467)) (.node (.leaf 7730455268829558643) (.leaf 17148226315594415145))) (.node (.node (.leaf 14327130824154426887) (.leaf 16842568984047522312)) (.node (.leaf 10122251552433275289) (.leaf 6549509778060988165)))))) (.node (.node (.node (.node (.node (.leaf 3432136347919366758) (.leaf 16109793598716311100)) (.node (.leaf 11485631769479599801) (.leaf 12690176289563455943))) (.node (.node (.leaf 15691716086439804087) (.leaf 13422792374992604543)) (.node (.leaf 11567973332241571036) (.leaf 13118988004869881546)))) (.node (.node (.node (.leaf 17702999974772413585) (.leaf 2628613740627889320)) (.node (.leaf 1848411117523063487) (.leaf 17854528813163386564))) (.node (.node (.leaf 12063115411652128397) (.leaf 7008521987288882964)) (.node (.leaf 5530308158539891708) (.leaf 2860911103167493259))))) (.node (.node (.node (.node (.leaf 7399204607179264370) (.leaf 8158286332358861718)) (.node (.leaf 9603180932220791817) (.leaf 2994597028103565543))) (.node (.node (.leaf 15066929237798940388) (.leaf 1721876046845854392)) (.node (.leaf 11741684142390913187) (.leaf 10660000026621187831)))) (.node (.node (.node (.leaf 16966062287010644749) (.leaf 9131956796466541322)) (.node (.leaf 13327030148229826424) (.leaf 13105311278491538903))) (.node (.node (.leaf 12383262458672579103) (.leaf 6099155138413436065)) (.node (.leaf 4600951196636466039) (.leaf 4727924503904151836))))))) (.node (.node (.node (.node (.node (.node (.leaf 3214246200928423523) (.leaf 6667480117540136779)) (.node (.leaf 9182514826368667184) (.leaf 1340472571717533606))) (.node (.node (.leaf 1378680973804076623) (.leaf 15182352039751412520)) (.node (.leaf 11860503814910655190) (.leaf 4623369983466747106)))) (.node (.node (.node (.leaf 17581701249550998855) (.leaf 13489606539521972333)) (.node (.leaf 3297360663327026118) (.leaf 339635816873858970))) (.node (.node (.leaf 5877026246039211124) (.leaf 5670390740934713304)) (.node (.leaf 7662494604586420558) (.leaf 9359194341002304104))))) (.node (.node (.node (.node (.leaf 10303139529070577017) (.leaf 18384928506924659011)) (.node (.leaf 10009107659229344338) (.leaf 899996630714791418))) (.node (.node (.leaf 859005579845670993) (.leaf 8983610917420146076)) (.node (.leaf 7790930297845911262) (.leaf 11112271228158943598)))) (.node (.node (.node (.leaf 12407545700111804674) (.leaf 74184876899443393)) (.node (.leaf 5073098731442674389) (.leaf 12313167596287644540))) (.node (.node (.leaf 1637614953354483776) (.leaf 10467709131392737444)) (.node (.leaf 5715986277202524800) (.leaf 16914047268224035561)))))) (.node (.node (.node (.node (.node (.leaf 13748905236245012081) (.leaf 1202024298738736502)) (.node (.leaf 5152724216922222472) (.leaf 12598027068668226835))) (.node (.node (.leaf 460638964809724379) (.leaf 1017933909609308228)) (.node (.leaf 1263269478536931145) (.leaf 6933250016240323664)))) (.node (.node (.node (.leaf 5293216666010209768) (.leaf 5345232712238813773)) (.node (.leaf 11932736566254486873) (.leaf 8700134485486622004))) (.node (.node (.leaf 11995118481713087914) (.leaf 10946567170512804608)) (.node (.leaf 15035120613856864378) (.leaf 7444204691177324181))))) (.node (.node (.node (.node (.leaf 12915425045000683329) (.leaf 17930787456663004470)) (.node (.leaf 7192165871822020282) (.leaf 10070201468809780037))) (.node (.node (.leaf 9722885996444150946) (.leaf 5559864569757380000)) (.node (.leaf 8816891275549542045) (.leaf 5446500518121291045)))) (.node (.node (.node (.leaf 11411085932076284862) (.leaf 22099178757704754)) (.node (.leaf 3483465760582650171) (.leaf 8106773277103211697))) (.node (.node (.leaf 6862084742702193339) (.leaf 12209974622899604911)) (.node (.leaf 9065747437067558111) (.leaf 7858325008468642462)))))))))
noncomputable def g10_3 : Tree := (.node (.node (.node (.node (.node (.node (.node (.node (.leaf 6561287832113134677) (.leaf 7941113837267854943)) (.node (.leaf 8739821670855295734) (.leaf 11346069089450335244))) (.node (.node (.leaf 18400807702465453034) (.leaf 4077716903750958194)) (.node (.leaf 13601564719816443589) (.leaf 13847462387142919467)))) (.node (.node (.node (.leaf 6999787169451700297) (.leaf 1159256241058966379)) (.node (.leaf 10552522441266611941) (.leaf 6706291041494563888))) (.node (.node (.leaf 5141735866072457044) (.leaf 5487541034902828271)) (.node (.leaf 6946242362685775318) (.leaf 10380906726741623612))))) (.node (.node (.node (.node (.leaf 4831763938021002582) (.leaf 4823850509807911142)) (.node (.leaf 3797048810173566205) (.leaf 3623665942510192329))) (.node (.node (.leaf 14028725908667580799) (.leaf 730509642500215940)) (.node (.leaf 4028912247909671416) (.leaf 9486595659187961990)))) (.node (.node (.node (.leaf 2629011484744925146) (.leaf 4355290964656419152)) (.node (.leaf 4602739923119569497) (.leaf 284725780453796946))) (.node (.node (.leaf 1630631832073154105) (.leaf 7421708309958176805)) (.node (.leaf 9610178040610218018) (.leaf 13793523891730566065)))))) (.node (.node (.node (.node (.node (.leaf 421942495471316930) (.leaf 3386824618901547762)) (.node (.leaf 7665614591556333409) (.leaf 6396540069380292132))) (.node (.node (.leaf 15209927617758412081) (.leaf 7734160491610189202)) (.node (.leaf 1112218670439199625) (.leaf 6093561527083620308)))) (.node (.node (.node (.leaf 12496725194737746507) (.leaf 7511556330643118785)) (.node (.leaf 5740274767717360273) (.leaf 18111480716034354357))) (.node (.node (.leaf 4287051124723328232) (.leaf 4656569414526204412)) (.node (.leaf 18353008346233291053) (.leaf 7153300451507295513))))) (.node (.node (.node (.node (.leaf 802439540090739142) (.leaf 1494290439970088554)) (.node (.leaf 11067531136919120693) (.leaf 1564973338399864744))) (.node (.node (.leaf 16999697712800573186) (.leaf 8591780283260295173)) (.node (.leaf 12119325820894234776) (.leaf 15499833483678125794)))) (.node (.node (.node (.leaf 10724645847535636471) (.leaf 8190919284549556346)) (.node (.leaf 9977754778323748670) (.leaf 12839204429038201151))) (.node (.node (.leaf 17083602979237295729) (.leaf 5308870500428712900)) (.node (.leaf 13444004222476132682) (.leaf 14796252507804280846))))))) (.node (.node (.node (.node (.node (.node (.leaf 12241423297023873018) (.leaf 16292115423603831981)) (.node (.leaf 3487881148722869326) (.leaf 3015788518022419172))) (.node (.node (.leaf 8922873767131958175) (.leaf 11473260408293916814)) (.node (.leaf 16597059646647655223) (.leaf 8971180328015050686)))) (.node (.node (.node (.leaf 15682530895364148274) (.leaf 10231135287654865684)) (.node (.leaf 11836294715923403837) (.leaf 10355440293737830067))) (.node (.node (.leaf 11995823427747035680) (.leaf 10842208886204497163)) (.node (.leaf 11210460518370038227) (.leaf 16385370526716955323))))) (.node (.node (.node (.node (.leaf 5678704711006605406) (.leaf 5437793788182680416)) (.node (.leaf 15036032900410842080) (.leaf 1765784450088366494))) (.node (.node (.leaf 8821388386505911040) (.leaf 13322520308326068757)) (.node (.leaf 10068912122063836921) (.leaf 13071773666531600249)))) (.node (.node (.node (.leaf 15377935326821115525) (.leaf 6267880520331323438)) (.node (.leaf 12087144524938010904) (.leaf 13525508979215740547))) (.node (.node (.leaf 2674037562503248056) (.leaf 5401705824239018731)) (.node (.leaf 3738403388662150470) (.leaf 14631077022245992099)))))) (.node (.node (.node (.node (.node (.leaf 5948965432456907277) (.leaf 1271522336860346025)) (.node (.leaf 17623836910915152341) (.leaf 16791609835598348582))) (.node (.node (.leaf 5226125132195873799) (.leaf 3836881802794822270)) (.node (.leaf 12455974392228691485) (.leaf 9128413284208255679)))) (.node (.node (.node (.leaf 15345880568547961059) (.leaf 3932170512244996561)) (.node (.leaf 13620591815564702195) (.leaf 11397947510903519547))) (.node (.node (.leaf 17289896101590403443) (.leaf 8035458231926703496)) (.node (.leaf 2507248404937789251) (.leaf 2187906506867626476))))) (.node (.node (.node (.node (.leaf 7852250862810361152) (.leaf 10238790748255110929)) (.node (.leaf 2754939666238358593) (.leaf 4964475598524693274))) (.node (.node (.leaf 16490478192134913802) (.leaf 17947929312755564086)) (.node (.leaf 1964465731879646024) (.leaf 10910763655887102767)))) (.node (.node (.node (.leaf 4410076014410041819) (.leaf 2444540809879438627)) (.node (.leaf 4125629484990072616) (.leaf 13702844559136150558))) (.node (.node (.leaf 5797523068258732423) (.leaf 1376856236535589493)) (.node (.leaf 6889748805645999668) (.leaf 14425632076328529814)))))))) (.node (.node (.node (.node (.node (.node (.node (.leaf 1893413629145602549) (.leaf 17203533056638157852)) (.node (.leaf 961841682317282412) (.leaf 1332977380922036690))) (.node (.node (.leaf 12734021026892126223) (.leaf 12277814504276850140)) (.node (.leaf 4230689665262407186) (.leaf 2560491659082246267)))) (.node (.node (.node (.leaf 327545298748531618) (.leaf 1026141471931805870)) (.node (.leaf 3065464070595795438) (.leaf 17656797450059587882))) (.node (.node (.leaf 3265027362719053310) (.leaf 8530400576707172340)) (.node (.leaf 15147764321093464775) (.leaf 10959706799060127120))))) (.node (.node (.node (.node (.leaf 14173855499281032303) (.leaf 3107332511049695348)) (.node (.leaf 15867839772959253853) (.leaf 9281808803060841315))) (.node (.node (.leaf 6671397049608501367) (.leaf 17796343913904606621)) (.node (.leaf 18037587660758276778) (.leaf 14229791298934897290)))) (.node (.node (.node (.leaf 679658461659738748) (.leaf 6487547078612259600)) (.node (.leaf 14980942922478280335) (.leaf 14614670887385324978))) (.node (.node (.leaf 1828719980936758421) (.leaf 8223709417363553275)) (.node (.leaf 520172056875071564) (.leaf 4688837593722596333)))))) (.node (.node (.node (.node (.node (.leaf 9361514122259283269) (.leaf 7130458179308482168)) (.node (.leaf 10615335048481936743) (.leaf 2034188120276215631))) (.node (.node (.leaf 14409996395411159111) (.leaf 7910254887717195099)) (.node (.leaf 8426162753992594376) (.leaf 12169565841013306)))) (.node (.node (.node (.leaf 16259867463176200084) (.leaf 14530951735809871833)) (.node (.leaf 6179930651821454089) (.leaf 9931395181607471617))) (.node (.node (.leaf 8655371236021312991) (.leaf 491061932033469878)) (.node (.leaf 12541344992679135386) (.leaf 9667256041923175882))))) (.node (.node (.node (.node (.leaf 1728614842704535657) (.leaf 9837305513065677719)) (.node (.leaf 9410969925345319376) (.leaf 15841348874649115855))) (.node (.node (.leaf 2147098610462912262) (.leaf 5028082178778891827)) (.node (.leaf 14721184867647846348) (.leaf 9771890684304357024)))) (.node (.node (.node (.leaf 7273530125705028225) (.leaf 3366895789332200348)) (.node (.leaf 11946163567554916583) (.leaf 9535062457613112024))) (.node (.node (.leaf 204405347605452144) (.leaf 12937794336414209978)) (.node (.leaf 930169001927683533) (.leaf 13917690577461137509))))))) (.node (.node (.node (.node (.node (.node (.leaf 7334764389497132503) (.leaf 6332043450707792835)) (.node (.leaf 10451359914320687899) (.leaf 11727889587379563708))) (.node (.node (.leaf 15064444873285696908) (.leaf 13249302657669755564)) (.node (.leaf 9047540561879224854) (.leaf 2265540171276805379)))) (.node (.node (.node (.leaf 9213801181845131435) (.leaf 17837053010959982172)) (.node (.leaf 3184382822055416328) (.leaf 7456716478970921562))) (.node (.node (.leaf 6017965846669640613) (.leaf 17577087322588800898)) (.node (.leaf 17027551023089054838) (.leaf 12663551718386818228))))) (.node (.node (.node (.node (.leaf 4536654317168965104) (.leaf 10131116070914134461)) (.node (.leaf 577633178325057199) (.leaf 5837777785993897047))) (.node (.node (.leaf 14866556336909964964) (.leaf 3579688877020158541)) (.node (.leaf 17294173404640996964) (.leaf 11777955427119840489)))) (.node (.node (.node (.leaf 2845612796809381245) (.leaf 16901268206404951963)) (.node (.leaf 16520591415739429341) (.leaf 13357650568845892272))) (.node (.node (.leaf 11151127292458434926) (.leaf 11284135823146617054)) (.node (.leaf 16089237235933099576) (.leaf 16667000290047189060)))))) (.node (.node (.node (.node (.node (.leaf 11573866571256030207) (.leaf 17449709749372114003)) (.node (.leaf 16755608983150617741) (.leaf 17937002894199062475))) (.node (.node (.leaf 2940247444995640068) (.leaf 8311228008842563790)) (.node (.leaf 15942953649737145623) (.leaf 14268022017174275008)))) (.node (.node (.node (.leaf 18251822138640095379) (.leaf 6834333685245251200)) (.node (.leaf 5115645765347262247) (.leaf 18213715995450361897))) (.node (.node (.leaf 2365060307249772354) (.leaf 137019260109594401)) (.node (.leaf 7581261321693772141) (.leaf 5612681432830855607))))) (.node (.node (.node (.node (.leaf 15476660523196402343) (.leaf 13014122770789771601)) (.node (.leaf 8444132705799138470) (.leaf 13134700095219650201))) (.node (.node (.leaf 15589826239460328034) (.leaf 15737034618683411560)) (.node (.leaf 16004983352460288019) (.leaf 12331386150595254155)))) (.node (.node (.node (.leaf 16142531744609233649) (.leaf 6459524513146455969)) (.node (.leaf 11612073089940694572) (.leaf 10782422547259353446))) (.node (.node (.leaf 8122903338174012641) (.leaf 12790835156597546584)) (.node (.leaf 17415394646893863865) (.leaf 14096329984509715743)))))))))
noncomputable def g10 : G := ⟨g10_0, g10_1, g10_2, g10_3, ⟨8776467054185364342, 8706128903373551164, 17831481522491099074⟩⟩

end Verif.Proof.Tiger
