import Verif.Proofs.TextCode
import Verif.Data.Tables

/-! Generated by tools/gen_codes.py; checked by the kernel. -/

namespace Verif

set_option maxRecDepth 100000

/-- The Hall symbols of the full table as numbers. -/
def hallCodes : List Nat := [
  1382985860258988081, 1540752741774821215436849, 1540801142744861730013305, 1382985860258988082,
  1540801142744861730013304, 1716625042745763391748583260258, 1540801142744861730013283, 1716625042745763391748582146145,
  1540783165219574197125241, 1540780399446453038219385, 1540791462538937673842809, 1382967241575759922,
  1382968482821308466, 1382977171540148274, 1540781782333013617672312, 1540783165219574197125240,
  1540791462538937673842808, 1716625042745763385542276415609, 1540801142744861724442674, 1716625042745763385542276415608,
  1912512559623567936993276661946974307, 2130753192827332521419453448395067436892259, 1912512559623567936993276661946974305, 1716625042745763385542276415585,
  1912512559623567936993276661920235618, 1716625042745763385542276415586, 1912512559623567936993276661945860194, 2130753192827332521419453448393826192457827,
  1912512559623567936993276661945860195, 1716605013769110241701289656441, 1716601932388086681110368616569, 1716614257912180923474052776057,
  1540780399446453032648754, 1540781782333013612101682, 1540791462538937668272178, 1716603473078598461405829136504,
  1716605013769110241701289656440, 1716614257912180923474052776056, 1912490245100330949602307221716795491, 2130724507198741052385459896479230920294499,
  1912500544111055713013523886438416481, 1912486812096756028465235000142921825, 2130728331949219914923325703401342456954979, 1912500544111055713013523886438416483,
  1716601932388086681110368616545, 1912488528598543489033771110904234083, 1716614257912180923474052776034, 1716603473078598461405829136482,
  1912486812096756028465235000116183139, 1716614257912180923474052776033, 1912488528598543489033771110928744546, 2130728331949219914923325703400101211406435,
  1912500544111055713013523886437302371, 1912490245100330949602307221715681379, 2130726419573980483654392799939045443633251, 1912500544111055713013523886437302370,
  1716571118644229613972779827321, 1540752741774821215436850, 1716571118644229613972779827320, 1912452482134959943682441678976254050,
  1716571118644229613972779827299, 1912452482134959943682441678975139937, 1716571118626252088685246939257, 1716571118623486315564088033401,
  1716571118634549408048723656825, 1540752741756202532208690, 1540752741757443777757234, 1540752741766132496597042,
  1716571118624869202124667486328, 1716571118626252088685246939256, 1716571118634549408048723656824, 1912452482134959943682441678976254051,
  2130686259776344492775932463847592351039587, 1912452482134959943682441678976254049, 1716571118644229613972779827297, 1912452482134959943682441678949515362,
  1716571118644229613972779827298, 1912452482134959943682441678975139938, 2130686259776344492775932463846351106605155, 1912452482134959943682441678975139939,
  2130686259776344492775932463847592352153699, 1912452482134959943682441678976254062, 2130686259776344492775932463847592351039586, 1912452482134959943682441678949515363,
  1716571118644229613972779827310, 1912452482134959943682441678950629475, 2130686259776344492775932463846351105491042, 1912452482134959943682441678975139950,
  2130686259776344492775932463846351105491043, 1912452482114930967029297837989494883, 2130686259750596965964023935805930546987107, 1912452482124175110099979610752614497,
  1912452482111849586005737247068455009, 2130686259754029969538945072878152121974883, 1912452482124175110099979610752614499, 1716571118623486315564088033377,
  1912452482113390276517517542503350371, 1716571118634549408048723656802, 1716571118624869202124667486306, 1912452482111849586005737247041716323,
  1716571118634549408048723656801, 1912452482113390276517517542527860834, 2130686259754029969538945072876910876426339, 1912452482124175110099979610751500387,
  1912452482114930967029297837988380771, 2130686259752313467751484504340800089489507, 1912452482124175110099979610751500386, 1716625042745763391748484104242,
  1912512559623567943907770285776961586, 2130753192827332529122971002854421067595873, 1912512559623567943907687122345263202, 2130753192827332529122881115250325875392610,
  2130753192827332529122972385824145078747186, 2644787915642841771387536997772267907220852852187529315, 2644787915642841771387536997772267907220852852187529314, 1912490245100330956516800845546782770,
  2130724507198741060088977450938584550998113, 1912488528598543495948181571328147554, 1716605013769110247907497345074, 1716601932388086687316576305202,
  1716603473078598467612036825138, 1716609635840645588793878904882, 1716614257912180929680260464690, 2644771299552070142586320543577926568943846892014534755,
  1912512559623567943907687122339692594, 1912512559623567936993276661847818290, 2130753192827332521419453448284596525137970, 2130753192827332529122973768627542220931122,
  2373897701167245098686254551313168318846014193763, 2373897701167245090103670120265136014115986341985, 2130753192827332521419453448284596530708577, 2373897701167245090103670120175248403814514032738,
  2373897701167245090103670120266518900676560224306, 2130753192827332529122881115244119595286627, 2130753192827332521419453448365277471309874, 2644787915642841761825580125030371905470563864622006370,
  2130753192827332529122881115244119595286625, 2130753192827332529122881115244119595286626, 2130753192827332521419453448366518716858418, 2130753192827332521419453448367759962406962,
  2644787915642841761825580125031912595982344160082526307, 2644787915642841761825580125028831214958783569161486433, 2644787915642841771387540430672616582046170565439455331, 2373897701167245098686254551313168318846014193762,
  2373897701167245090103670120266518900676565794913, 2644787915642841761825580125028831307612166991792701537, 2946589954272677720951020724257837807573867160090054801621091, 2946589954272677720951020724256121202560160279805641972842594,
  2373897701167245098686151325066856570543973466211, 2373897701167245098686151325066856570543972352099, 2373897701167245090103670120265136097279418040370, 2373897701167245090103670120265136096038172491826,
  3282831227134641521044183601142435818515803233068779137977119998050, 3282831227134641521044183601144348195471736289462251135143675822179, 2373897701167245098686251470024798141677718798386, 2946589954272677731604113532037296373918564801826266988806243,
  2946589954272677720951020724256121304245716079779854834270306, 2373897701167245090103670120175248410020794138723, 2644787915642841761825580124928686349670595858041798755, 2644787915642841761825580125028831306229280431207678002,
  2373897701167245098686151325066856570543972352098, 2373897701167245090103670120266518983839997493298, 3282831227134641521044183601142435820232305020529347674087906934883, 2373897701167245098686254551313168318846014193774,
  2644787915642841771387540430672616582046170565439455330, 2644787915642841761825580125030371998123947287253221473, 2373897701167245090103670120283113539403519230049, 2946589954272677720951020724278435725797147670775082203021411,
  2946589954272677720951020724256121305786406591553944014684270, 2130753192827332529122881115244119595286638, 2130753192827332521419453448381413663440946, 2644787915642841761825580125048860191611927410148245614,
  1912490245100330956516717682109513778, 1912486812096756028465235000043765810, 2130726419573980483654392799829815776313394, 2130728331949219922626846023633817239879730,
  2373870003364609306437640677082719392756885749859, 2373865742164203791355269496153079560936222752865, 2130724507198741052385459896368760014110817, 2373867872764406544605162871003995714180068016226,
  2373867872764406544605162871095266211042114207794, 2130728331949219922626753370250394614235235, 2130724507198741052385459896449440954712114, 2644754683461298504223147216641689228916551944273789026,
  1912486812096756035379645460535640114, 1912488528598543495948181571322576946, 1912488528598543489033771110830702642, 1912490245100330949602307221617639474,
  2130728331949219914923325703290871544086578, 2130724507198741052385459896368760008540210, 2130724507198741060088887563328283078688866, 2130726419573980491357820466789338846462051,
  2130726419573980483654392799912979213582386, 2130728331949219914923325703372793735807026, 2644757057188551594051892424383737991527552795727233122, 2644752309734045414394402008901181156817331388280864867,
  2130724507198741060088887563328283078688865, 2130726419573980491357820466789338846462050, 2130726419573980483654392799911737968033842, 2130728331949219914923325703374034981355570,
  2644757057188551594051892424385278682039333091187753059, 2644752309734045414394402008898099775793770797359824993, 2373865742164203799937750700954800117364208762978, 2373867872764406553187644075895603880909527449699,
  2373867872764406544605162871095266294205551476786, 2373870003364609297855056246036070057750869049394, 3282792924215618901795786819905471019452389825296894539115419271267, 3282787031458846191142187315097577540209982177261628524824533991523,
  1912495394605693338222326014470324274, 1912495394605693331307915553978449970, 2130734069074938208730124413674038847406130, 2373876395165217566187217575658818935090823364708,
  2130734069074938208730124413758443530223666, 2644764178370310863538128047612965660384115941008605284, 1912500544111055719927934346831134770, 1912500544111055713013523886339260466,
  2130739806200656502536923124057206150725682, 2130739806200656510240350791016729220874339, 2130739806200656502536923124137887096897586, 2644771299552070133024363670836030567193557904447897698,
  2130739806200656510240350791016729220874337, 2130739806200656510240350791016729220874338, 2130739806200656502536923124139128342446130, 2130739806200656502536923124140369587994674,
  2644771299552070133024363670837571257705338199908417635, 2644771299552070133024363670834489876681777608987377761, 1912452482134959943682441678877098034, 2644787915642841771387425425080589135188764967189938286,
  2946497393456007796866625537157014223359732637387152668360803, 2130686259776344492775932463737121444855907, 2130686259776344492775932463817802385457202, 2373823130251942715535579669130362337827073687650,
  2946589954272677731603987315187385322583425315125916509208674, 2644704835291252402690775736332625645679907080605139042, 2946589954272677731603987315187385322583425315125916510322787, 2644704835291252402690775736334166244921196720295116899,
  2946589954272677731603987315187385322583425315125916509208675, 2373823130251942715535579669128979451266494234723, 2373823130251942715535579669128979451266494234721, 2130686259776344492775932463819043631005746,
  2130686259776344492775932463737121444855906, 2373823130251942715535579669131745224387653140579, 2130686259776344492775932463820284876554290, 2130686259776344492775932463737121444855905,
  2644704835291252402690775736332625554409416424834596963, 2373823130251942715535579669130362337827073687662, 2373823130251942715535579669146956976554027122786, 2644704835291252402690775736332625645679907080605139043,
  2644704835291252402690775736332625645679907080605139054, 2644704835291252402690775736352654531062560265821356131, 2373823130251942715535579669128979534429925933106, 2946497393456007796866625537158730726687883717703558915817571,
  2946497393456007796866625537157014223359732637387152667246690, 2373823130251942715535579669039091847171302031459, 2373823130251942715535579669039091847171303145571, 2373823130251942715535579669128979533188680384562,
  2644704835291252402690775736332625554409416424833482851, 2373823130251942715535579669130362337827073687651, 2373823130251942715535579669128979451266494234722, 2644704835291252402690775736332625647062793641184591971,
  2644704835291252402690775736334166337574573936645111906, 2644704835291252402690775736334166244921196720294002786, 2373823130251942715535579669039091847171302031458, 2373823130251942715535579669130362420990505386034,
  2946497393456007796866625537157014224900423149167448127766627, 2946497393456007796866625537157014223359732637387152667246691, 2946497393456007796866625537157014224900423149167448128880739, 2946497393456007796866625537158730726687883717703558914703458,
  2373823130251942715535579669131745224387653140578, 2644704835291252402690775736335706935432977015754522723, 2644704835291252402690775736332625647062793641184591969, 2373823130251942715535579669130362337827073687649,
  2644704835291252402690775736332625554409416424833482850, 2644704835291252402690775736334166337574573936645111907, 2130686259776344492775932463737121444855918, 2130686259776344492775932463833938577588274,
  2373823130251942715535579669146956976554027122798, 3657441664125429747516524840017384041183639684076948536150421689221578850, 2644704835291252402690775736332625645679907080605139041, 3657441664125429747516681506120487255511259684709260221846189663032836195,
  2644704835291252402690775736335706935432977015755636835, 4539783184655049252976075811476677941496834862236692124474527442833706608741005197411, 2373823130251942715535579669131745224387653140577, 2644704835291252402690775736352654531062560265820242018,
  2373823130251942715535579669146956976554027122787, 2373823130251942715535579669128979451266494234734, 2644704835291252402690775736334166337574573936645111918, 2644704835291252402690775736332625647062793641184591970,
  2644704835291252402690775736334166244921196720294002787, 2946497393456007796866625537157014224900423149167448127766626, 2946497393456007796866625537158730726687883717703558914703459, 2644704835291252402690775736332625647062793641184591982,
  2644704835291252402690775736334166337574573936645111905, 2644704835291252402690775736335706935432977015754522722, 2644704835291252402690775736352654531062560265820242019, 2373823130251942715535579669146956976554027122785,
  2373823130251942715535579669131745224387653140590, 2130686259754029969538945072850844646375474, 2373823130227081837422973173004000230662672089187, 2373823130223257086944110635135427535429977636961,
  2130686259750596965964023935695459640803425, 2130686259752313467751484504231570427740258, 2130686259752313467751484504313492613890098, 2373823130227081837422973173002617427265524334642,
  2946497393425149342576457763471030080053969774692490021044323, 2946497393420401888070278105978898094168983984154676326105187, 2373823130223257086944110635045539931334785433699, 2373823130225169462183541903978443392390554320995,
  2373823130225169462183541904069713966209756561458, 1912452482114930967029297837890338866, 1912452482111849586005737246969298994, 1912452482113390276517517542429818930,
  2130686259754029969538945072767681214677091, 2130686259750596965964023935776140581404722, 2373823130225169462183541904069713883046324863074, 2130686259754029969538945072849603400826930,
  2373823130227081837422973173002617344102092636258, 2373823130223257086944110635138193308551136542819, 2130686259750596965964023935695459640803427, 2130686259752313467751484504231570427740259,
  2130686259752313467751484504314733859438642, 2946555574498451604205308563644562719452549367137422897447011, 2644704835263554600054983487720292014472270631166672995, 2946555574498451604205308563644562719452549367137422897447011,
  2373823130227081837422973173002617344102092636259, 2946550285302416815374742601868743857432414605908423878967395, 2373823130223257086944110635135427535429977636963, 2946550285302416815374742601868743857432414605908423878967395,
  2644704835259293399649476987932001535006340461421002851, 2946552929900434209790025582756653288442481986522923388764259, 2644704835261423999852230237826917166321884302199095394, 2946552929900434209790025582756653288442481986522923388764259,
  2644704835261423999852230237826917073668507085849100387, 1912452482119553038564638724271898674, 2644764178370310873099973347660101509078756452655497316, 2946497393432270524335727249739266869435128133706763105337463,
  1912452482124175110099979610653458482, 2130686259764328980263708483984345936298083, 2130686259764328980263708484065026876899378, 2373823130238556088859560786600038110436699275362,
  2373823130238556088859560786600038110436699275363, 2373823130238556088859560786598655223876119822434, 2130686259764328980263708484066268122447922, 2373823130238556088859560786598655223876119822433,
  2373823130238556088859560786601420996997278728291, 2130686259764328980263708483984345936298082, 2130686259764328980263708483984345936298081, 2130686259764328980263708484067509367996466,
  1382985860258988084, 1540801142744861732241527, 1540801142744861732241507, 1716625042745763394231049846903,
  1382977171540148276, 1716614257912180932162825093239, 1540801142744861724442676, 1540791462538937668272180,
  1540752741774821215436852, 1716571118644229613972782055523, 2946589954272677735865312025166840227612052937354949822578786, 1716571118644229613972782055521,
  2373897701167245102119275073829934974317652672622, 1912452482134959943682444161441726563, 1540752741766132496597044, 2946571442086555974958333071362760179347186115772835556360311,
  1912452482124175110099982093216972900, 1716625042745763394230975201330, 2644787915642841775212287476633265082515994668262555746, 2130753192827332532204382449919344736600163,
  2946589954272677735865312025166840361652109484716608614957175, 1912512559623567946673543406935867442, 2130753192827332532204370003940299521523822, 2373897701167245102119258126354616505701808341091,
  2946589954272677735865336886080999371644859536099384014012535, 1716614257912180932162751561778, 2644771299552070146411072738973065705554911023547416695, 1912512559623567946673460243498598450,
  2373897701167245102119154899987993642765546225762, 2373897701167245102119258126234305391067588067427, 2373897701167245102119275073829934974317653786734, 2130753192827332532204262138804710516326499,
  2130753192827332532204262138804710516326510, 2130753192827332532204354792188133141970994, 2644787915642841775212290909535154447853092676975001698, 1912500544111055722693707467990040626,
  2130739806200656513321731814577320141914211, 2373882786965825829370002961078478380589119242290, 2644771299552070146411072738973065705554904817266196579, 1912512559623567936993279144338915378,
  2130753192827332521419456214057717689614435, 2373897701167245090103673201556271970611715178594, 2130753192827332521419456214057717689614446, 2130753192827332521419456214057717684043826,
  2373897701167245090103673201556271964405435072611, 2644787915642841761825583557932261270807668079614558306, 2373897701167245090103673201556271964405435072622, 2130739806200656502536925889830327309631538,
  2373882786965825817354419576970645619588212064355, 1912500544111055713013526368830357554, 2373882786965825817354419576970645625794493284471, 1912452482134959943682444161368195122,
  2130686259776344492775935229510242603761763, 2946589954272677735865187720693885109333306922653007144353890, 2373823130251942715535582750510003011857415274594, 2644787915642841775212175903943127000995687078725484654,
  2644704835291252402690779169336200475546488646408470627, 2373823130251942715535582750420115407762223071330, 2130686259776344492775935229510242603761774, 4539783184655049259541266845032245046530938848173454198868269136654667340124932604002,
  2373823130251942715535582750510003011857415274593, 4074799647302110792758059194257170775048593721455576246994716589864460395544674, 2644704835291252402690779169336200475546488646407356515, 2130686259776344492775935229593406035460146,
  2373823130251942715535582750512768784978574180451, 3282831227134641537660402208659097757008585018355579003015710965870, 2644704835291252402690779169336200568199865862758465634, 2946589954272677735865336885931663743868194393480428586598510,
  2946497393456007796866629361907493087438288956089559664427107, 2644704835291252402690779169339281856570049237328396386, 2373823130251942715535582750527980537144948162670, 3282831227134641537660402208659097757008601965951208586265776685166,
  2644704835291252402690779169336200568199865862758465633, 3657441664125429752805906025493604720256345239068281468870736801844756590, 2946497393456007796866629361907493087438288956089559663312995, 1912452482124175110099982093144555570,
  2130686259764328980263711249757467095203939, 4539754663105539151646478507034666999237032121022338528797375940029843563447700291703, 2373823130238556088859563867981061755432297562162, 4539754663105539151646478507034666999237032121020426153557944671096940102391932518519,
  2644704835276338201271506420084116674468187901575430243, 1382985860258988083, 1540801142744861731127345, 1540801142744861731127346,
  1382988342750085171, 1540801142744861731127338, 1540752741774821215436851, 1540752741777303706533939,
  1716571118644229613972780941354, 1716625042745763392989729652786, 1912512559623567945290573682924716066, 5057826923422406236988703266083495091848177669477457767804812583559615355820868113258315817,
  2130753192827332530663595136079808714375202, 5634985669307983857503961830361871273572335374752362818469691922038563636162642239567385847726121, 2130753192827332530663596518966369293828130, 1912515992627142866427645904498589730,
  1912512559623567945290586095360147506, 2130753192827332530663571627024415055806498, 1912512559623567945290573682919145522, 2373897701167245100402653112527425106654689099875,
  2130753192827332530663571627024415055806563, 2130757017577811393201437433946526591352866, 2130753192827332530663585455873884652634162, 2373901962367650606902439862409032633745324245091,
  2373897701167245100402668519414565378115551494254, 1912452482134959943682442920122646578, 2130686259776344492775933846623682024308835, 2130686259776344492775933846623682024308770,
  2373823130251942715535581209729603627466692362339, 2130686259779777496350854983695903598182434, 2130686259776344492775933846636094459740210, 2373823130255767466014443747595410549578227908707,
  2373823130251942715535581209743432470730084843630, 1382985860258988086, 1540801142744861734469681, 1540801142744861734469685,
  1540801142744861734469682, 1540801142744861734469684, 1540801142744861734469731, 1540801142744861724442678,
  1540752741774821215436854, 1716571118644229613972784283747, 1716625042745763396713466298418, 5057826923422406247960240435252904627213185109938140975894715495794125937179867702467035177,
  4539783184655049266106328237766913688782268939689136653568621049897235318351868264489, 5057826923422406247960243717848421406319195675396253787371125973755436059948330816578322473, 5634985669307983869727490363337653249443448642418057879285893030760203285337841191062547172753449, 2130753192827332535285735815748724068581475,
  1912512559623567949439233364657504306, 2130753192827332535285643162365301437366371, 2130753192827332535285735815748724063010866, 2373897701167245105552261701155442463289161941091,
  1912512559623567936993281626830012466, 2130753192827332521419458979914002280218674, 2130753192827332521419458979830838842949682, 2644787915642841761825586991039062438256488603230273635,
  1912452482134959943682446643859292210, 2130686259776344492775937995283363762667619, 2130686259776344492775937995366527194366002, 2373823130251942715535585831893792345569495220323,
  2130753192827332529122881115250325802975283, 2130734069074938216433552080639768125243443, 2130739806200656510240350791022935428562995, 3282831227134641532912920004804933584489274397069016773712045670451,
  2644771299552070142586322259976487790115122118335135795, 2373823130251942715535579669039091847171229614131, 3282831227134641532912781515698048236514074388805126639605583511662, 3657326773423768593754055539274696773931361476134796156737778233078972467,
  2373823130232818963141266979710057236613551882291, 3282801763350777979644783991668142716499192493293313873430001549412, 3657326773394304809890502271319784786328411247745778146727260115703955507, 2373823130238556088859560786508767619780855201843,
  3657326773423768593754055539274696775843736715566065088258351487021744179, 2946497393439391706094996735942276429120306043436714275373107, 2130753192827332532204262138810916724015155, 2373897701167245102119275073829934980523861475379,
  2130734069074938219514933104200359046283315, 2373876395165217569620325917516779542116080549939, 2130739806200656513321731814583526349602867, 3657441664125429752805875167182064861685775680151077242320326898019729459,
  3282831227134641537660376641586706203394083138467946000016037904435, 2946571442086555974958333071330146645385442228081595705720883, 2373897701167245090103673201556271970611642761267, 2373876395165217557604739452148234335158467035187,
  2373882786965825817354419576970645625794419753011, 2644787915642841761825583558052435112749005837929807923, 2644764178370310863538131480614999891009414073329647667, 3282810602485937033756589595523819839677607499953072755646046142515,
  2373823130251942715535582750420115407762150654003, 3282831227134641537660236021877705726929558486330348641308490399854, 3282728104018059758582674171653480823626454958084350178898762268723, 2644704835291252402690779169356229452199632487321698355,
  3657441664125429752805906025493604720256233666379684077862215714049425518, 3657326773423768593754060286731333555703980380943537555667004537071206451, 2373823130232818963141270061091080797204472922163, 2644704835269946400663246670405532448532413784080252979,
  3657408838170261961747367030729067723253961490586739707202797228399853668, 3657326773394304809890507018776421568101030152554519545656486419696189491, 4074763075511546894726282577339623099289917544200573748671122825727017768648804, 4074671646159875720356732555657935766141034333025557271204925168864032211337267,
  2373823130238556088859563867889791180371776241715, 3282728103999547572460913264674527100221962971368659193765377867827]

theorem hallCodes_eq : Data.hallName.map textCode = hallCodes := by decide +kernel

/-- The Hermann-Mauguin symbols of the full table as numbers. -/
def hmCodes : List Nat := [
  1382985860258988081, 1540801142744861724442673, 2130753192827332527582190603470030342455345, 2130753192827332527582190603468789096906802,
  2130753192827332529122881115249084557426737, 2373897701167245096969649537613202465994764714033, 2373897701167245096969649537611819558333030989873, 2373897701167245098686177516787579309037950337073,
  2130728331949219921086062858476305361403953, 2130724507198741058548197051554193825857585, 2130739806200656508699660279242639968043057, 2130724507198741058548197051552952580309042,
  2130726419573980489817129955014008348082226, 2130739806200656508699660279241398722494514, 2130726419573980491357820466794303808602161, 2130728331949219922626753370255359576375345,
  2130739806200656510240350791021694183014449, 2130753192827332527582190603543263829819441, 2130753192827332527582190603468789096906861, 2130753192827332620023621310286516728102961,
  2130753192827332527582190603530851374334001, 2130753192827332527582190603544505075367985, 2130753192827332527582190603528368883236913, 2130753192827332527582190603468789096906849,
  2130753192827332527582190603468789096906862, 2130753192827332527582190603468789096906850, 2130753192827332603076025680703266662383665, 2130753192827332621564311822066812188622897,
  2130753192827332604616716192483562122903601, 2130728331949219921086062858549538848768049, 2130724507198741058548197051627427313221681, 2130739806200656508699660279315873455407153,
  2130724507198741058548197051552952580309101, 2130726419573980489817129955014008348082285, 2130739806200656508699660279241398722494573, 2130726419573980582258560661831735979278385,
  2130728331949220013527493565292791747051569, 2130739806200656601141090986059126353690673, 2130728331949219921086062858537126393282609, 2130724507198741058548197051628668558770225,
  2130739806200656508699660279300978508824625, 2130724507198741058548197051612532366639153, 2130728331949219921086062858550780094316593, 2130739806200656508699660279303460999921713,
  2130724507198741058548197051552952580309089, 2130726419573980489817129955014008348082286, 2130739806200656508699660279241398722494562, 2130726419573980489817129955014008348082274,
  2130724507198741058548197051552952580309102, 2130739806200656508699660279241398722494561, 2130726419573980565310965032248485913559089, 2130728331949220015068184077073087207571505,
  2130739806200656585734185868256171748491313, 2130728331949219998120588447489837141852209, 2130726419573980583799251173612031439798321, 2130739806200656584193495356475876287971377,
  2644787915642841769475050185649320223028681759810125873, 2644787915642841769475050185647779511773529822187159661, 2644787915642841771387451172698301783911849026127921201, 2946589954272677729473387112434135455400225977474989839876145,
  2946589954272677729473387112432418927421030857259063246258285, 2946589954272677731604019825561306267426054397912995055271985, 2644757057188551601701362485002686309085670690915352625, 2644752309734045422043872069518588783863668988008464433,
  2644771299552070140673833731454978884751675799636017201, 2644752309734045422043872069517048072608517050385498221, 2644754683461298511872617277259096835219517901838942317, 2644771299552070140673833731453438173496523862013050989,
  2644754683461298513785018264309619107357837105779703857, 2644757057188551603613763472051667869968837957233147953, 2644771299552070142586234718503960445634843065953812529, 2644787915642841769475050185649320223028669347354640433,
  2644787915642841769475050185649320223028683001055674417, 2644787915642841769475050185649320223028666864863543345, 2644787915642841769475050185647779511773529822187159649, 2644787915642841769475050185647779511773529822187159662,
  2644787915642841769475050185647779511773529822187159650, 2644787915642841771387451172681354188282265776062201905, 2644787915642841771387451172699842474423629321588441137, 2644787915642841771387451172682894878794046071522721841,
  2946589954272677729473387112434135455400225977462577384390705, 2946589954272677729473387112434135455400225977476231085424689, 2946589954272677729473387112434135455400225977460094893293617, 2946589954272677729473387112432418927421030857259063246258273,
  2946589954272677729473387112432418927421030857259063246258286, 2946589954272677729473387112432418927421030857259063246258274, 2946589954272677731604019825561306250478458768329744989552689, 2946589954272677731604019825561306268966744909693290515791921,
  2946589954272677731604019825561306252019149280110040450072625, 2644757057188551601701362485002686309085658278459867185, 2644752309734045422043872069518588783863670229254012977, 2644771299552070140673833731454978884751660904689434673,
  2644752309734045422043872069518588783863654093061881905, 2644757057188551601701362485002686309085671932160901169, 2644771299552070140673833731454978884751663387180531761, 2644752309734045422043872069517048072608517050385498209,
  2644754683461298511872617277259096835219517901838942318, 2644771299552070140673833731453438173496523862013050978, 2644754683461298511872617277259096835219517901838942306, 2644752309734045422043872069517048072608517050385498222,
  2644771299552070140673833731453438173496523862013050977, 2644754683461298513785018264292671511728253855713984561, 2644757057188551603613763472053208560480618252693667889, 2644771299552070142586234718488553540517040111348613169,
  2644757057188551603613763472036260964851035002627948593, 2644754683461298513785018264311159797869617401240223793, 2644771299552070142586234718487012850005259815888093233, 2130753192827332529122881115250325802975282,
  2373897701167245098686151325073770981004397379633, 2373897701167245098686177516787579310279195885618, 2373897701167245098686151325073771002105551650866, 2644787915642841771387454605583243560533796587671912498,
  2644787915642841771387425425080589158697820360849621041, 2644787915642841771387454605583243560533775486517641265, 2946589954272677731604019825535558649713429183884329776971825, 2373870003364609306437537450843322054915268935729,
  2373865742164203799937776892675522857099432296498, 2373867872764406553187644075902518312471105634354, 2130728331949219922626753370256600821923890, 2130724507198741060088887563334489286377522,
  2130726419573980491357820466795545054150706, 2130734069074938216433552080639768125243442, 2130739806200656510240350791022935428562994, 2946571442086555970697038959320192632642957519582833216192561,
  2130753192827332620023621310360991461015602, 2130753192827332529122881115323559290339437, 2130753192827332620023621310287757973651565, 2373897701167245199959756785315076053009219846193,
  2373897701167245182794738910723219557507145007153, 2373897701167245098686177516787579383512683249761, 2373897701167245098686177516787579368617736667245, 2373897701167245181078237123181060735423324618861,
  2373897701167245199959756785247314632641980924002, 2130753192827332604616716192545624400330802, 2130753192827332529122881115308664343756897, 2130753192827332603076025680704507907932258,
  2130753192827332620023621310346096514433074, 2130753192827332603076025680777741395296306, 2130753192827332529122881115323559290339426, 2130753192827332529122881115311146834853997,
  2130753192827332604616716192484803368452205, 2130753192827332620023621310287757973651553, 2373897701167245182794738910706624918780191572017, 2373897701167245181078237123248822155790563541041,
  2373897701167245098686177516787579368617736667234, 2373897701167245098686177516787579371100227764321, 2373897701167245182794738910641629271534111555682, 2373897701167245181078237123181060735423324618849,
  2130753192827332621564311822128874466050098, 2130753192827332604616716192559278101364786, 2130753192827332529122881115324800535887969, 2130753192827332529122881115308664343756910,
  2130753192827332603076025680704507907932270, 2130753192827332621564311822068053434171490, 2373897701167245199959756785330287805175593828401, 2373897701167245201676258572789473454725801312305,
  2373897701167245098686177516787579383512683249774, 2373897701167245098686177516787579384753928798317, 2373897701167245201676258572707883168752767860845, 2373897701167245199959756785247314632641980924014,
  2130753192827332603076025680762846448713778, 2130753192827332529122881115311146834853986, 2130753192827332604616716192484803368452193, 2373897701167245201676258572772878815998847877169,
  2373897701167245181078237123264033907956937523249, 2373897701167245098686177516787579384753928798306, 2373897701167245098686177516787579371100227764334, 2373897701167245182794738910641629271534111555694,
  2373897701167245201676258572707883168752767860833, 2130753192827332621564311822142528167084082, 2130753192827332529122881115324800535887982, 2130753192827332621564311822068053434171502,
  2130728331949220013527493565367266479964210, 2130724507198741060088887563407722773741677, 2130726419573980582258560661832977224826989, 2373870003364609407711142911084627126920091402289,
  2373870003364609390546125036492770631418016563249, 2373865742164203799937776892675522930332919660641, 2373865742164203799937776892675522915437973078125, 2373867872764406635579729874009808045788878602349,
  2373867872764406654461249536076061943007534907490, 2130728331949219998120588447551899419279410, 2130724507198741060088887563392827827159137, 2130726419573980565310965032249727159107682,
  2130724507198741150989627758445154944417842, 2130726419573980582258560661906210712191026, 2130726419573980491357820466868778541514861, 2130728331949219922626753370329834309288045,
  2130728331949220013527493565294032992600173, 2130724507198741150989627758371921457053805, 2130724507198741134042032128861904878698546, 2130726419573980582258560661891315765608498,
  2130726419573980491357820466856366086029421, 2130728331949219922626753370329834309288034, 2130728331949220013527493565294032992600161, 2130724507198741135582722640568966851854445,
  2130724507198741150989627758430259997835314, 2130726419573980565310965032322960646471730, 2130726419573980491357820466868778541514850, 2130728331949219922626753370317421853802605,
  2130728331949219998120588447491078387400813, 2130724507198741150989627758371921457053793, 2130724507198741134042032128847009932116018, 2130726419573980565310965032308065699889202,
  2130726419573980491357820466856366086029410, 2130728331949219922626753370317421853802594, 2130728331949219998120588447491078387400801, 2130724507198741135582722640568966851854433,
  2130734069074938307334292275750433783283762, 2130734069074938216433552080713001612607597, 2130734069074938307334292275677200295919725, 2130734069074938293468077669716603428667442,
  2130734069074938216433552080701830402670692, 2130734069074938293468077669654541151240292, 2130739806200656601141090986133601086603314, 2130739806200656510240350791096168915927149,
  2130739806200656601141090986060367599239277, 2130739806200656584193495356535456074301490, 2130739806200656510240350791083756460441698, 2130739806200656585734185868257412994039905,
  2130739806200656601141090986118706140020786, 2130739806200656584193495356550351020884018, 2130739806200656510240350791096168915927138, 2130739806200656510240350791083756460441709,
  2130739806200656585734185868257412994039917, 2130739806200656601141090986060367599239265, 2130753192827332620023621310360991461015661, 2644787915642841886129939791049166540103326721858207793,
  2644787915642841886129939791049166540103326721858207794, 2130753192827332604616716192545624400330861, 2130753192827332620023621310346096514433121, 2130753192827332603076025680777741395296354,
  2644787915642841863181436917853910368608650211658170417, 2644787915642841863181436917853910368608650211658170418, 2644787915642841886129939791032218944473728576845905969, 2644787915642841886129939791032218944473728576845905970,
  2644787915642841865093812157305208278165238972220571697, 2644787915642841865093812157305208278165238972220571698, 2130753192827332620023621310360991461015649, 2130753192827332620023621310360991461015650,
  2130753192827332603076025680777741395296365, 2130753192827332604616716192558036855816301, 2130753192827332620023621310348579005530221, 2130753192827332620023621310346096514433133,
  2130753192827332621564311822142528167084129, 2130753192827332621564311822142528167084130, 2130753192827332603076025680778982640844910, 2130753192827332604616716192559278101364846,
  2130753192827332621564311822128874466050158, 2130753192827332621564311822126391974953070, 2130753192827332620023621310362232706564193, 2130753192827332621564311822141286921535586,
  2130753192827332603076025680777741395296366, 2130753192827332604616716192559278101364845, 2130753192827332621564311822128874466050157, 2130753192827332620023621310346096514433134,
  2130753192827332604616716192545624400330849, 2130753192827332604616716192545624400330850, 2130753192827332603076025680762846448713825, 2130753192827332604616716192543141909233761,
  2130753192827332603076025680765328939810914, 2130753192827332603076025680762846448713826, 2130753192827332603076025680762846448713837, 2130753192827332620023621310348579005530210,
  2130753192827332604616716192558036855816289, 2130753192827332604616716192545624400330862, 2130753192827332621564311822126391974953057, 2130753192827332603076025680778982640844898,
  2130753192827332603076025680765328939810925, 2130753192827332604616716192543141909233773, 2130753192827332620023621310348579005530209, 2130753192827332620023621310346096514433122,
  2130753192827332603076025680777741395296353, 2130753192827332604616716192558036855816290, 2130753192827332621564311822142528167084141, 2130753192827332620023621310362232706564206,
  2130753192827332621564311822141286921535598, 2644787915642841884217564551616356916688085370629914673, 2644787915642841884217564551616356916688085370629914674, 2644787915642841886129939791047625849591545185152139313,
  2644787915642841886129939791047625849591545185152139314, 2644787915642841884217564551617897607199864424844886065, 2644787915642841884217564551617897607199864424844886066, 2130753192827332603076025680765328939810926,
  2130753192827332604616716192543141909233774, 2130753192827332621564311822128874466050145, 2130753192827332621564311822126391974953058, 2130753192827332603076025680778982640844897,
  2130753192827332604616716192559278101364834, 2130753192827332603076025680765328939810913, 2130753192827332604616716192543141909233762, 2130753192827332621564311822141286921535585,
  2130753192827332620023621310362232706564194, 2130753192827332603076025680778982640844909, 2130753192827332604616716192558036855816302, 2130753192827332620023621310348579005530222,
  2130753192827332621564311822126391974953069, 2130728331949220013527493565354854024478829, 2130728331949219998120588447564311874764909, 2130724507198741150989627758445154944417889,
  2130724507198741150989627758430259997835373, 2130726419573980565310965032322960646471789, 2130726419573980582258560661906210712191074, 2130728331949220013527493565354854024478817,
  2130728331949219998120588447564311874764898, 2130724507198741134042032128861904878698593, 2130724507198741135582722640627305392636013, 2130726419573980565310965032310548190986349,
  2130726419573980582258560661891315765608546, 2130728331949220013527493565367266479964269, 2130724507198741150989627758445154944417901, 2130726419573980582258560661906210712191085,
  2130728331949219998120588447551899419279469, 2130724507198741150989627758430259997835361, 2130726419573980565310965032322960646471778, 2130728331949220013527493565367266479964257,
  2130728331949220013527493565367266479964258, 2130724507198741134042032128861904878698605, 2130724507198741135582722640642200339218541, 2130726419573980582258560661893798256705645,
  2130726419573980582258560661891315765608557, 2644757057188551697320124456641626768592644653260079153, 2644757057188551697320124456641626768592644653260079154, 2644757057188551697320124456641626768592645894505627697,
  2644757057188551697320124456641626768592645894505627698, 2644752309734045515750258801723178929443621303664377905, 2644752309734045515750258801723178929443621303664377906, 2644752309734045517662634041154447862347082359432151089,
  2644752309734045517662634041154447862347082359432151090, 2644754683461298605579004009468309073078183987284410417, 2644754683461298605579004009468309073078183987284410418, 2644754683461298605579004009465227692054623396363370545,
  2644754683461298605579004009465227692054623396363370546, 2130734069074938307334292275750433783283821, 2644764178370310968718735319300582679840892282585350193, 2644764178370310968718735319300582679840892282585350194,
  2130739806200656601141090986133601086603373, 2130739806200656584193495356535456074301549, 2130739806200656601141090986121188631117922, 2130739806200656585734185868330646481404001,
  2130739806200656584193495356537938565398625, 2130739806200656585734185868315751534821474, 2130739806200656601141090986133601086603361, 2130739806200656601141090986133601086603362,
  2130739806200656584193495356550351020884077, 2130739806200656585734185868330646481404013, 2130739806200656601141090986121188631117933, 2130739806200656601141090986118706140020845,
  1382985860258988084, 1540801142744861732241457, 1540801142744861732241458, 1540801142744861732241459,
  1382977171540148276, 1540791462538937676070961, 1540801142744861724442676, 1540791462538937668272180,
  1716625042745763394230991913069, 1912512559623567946673482585920700525, 2130753192827332532204282882183800177688625, 2130753192827332532204282882183800177688626,
  2373897701167245102119182632419971535679683952689, 2373897701167245102119182632419971535679683952690, 1716614257912180932162768273517, 2373882786965825829369927467143833394430808293425,
  2373882786965825829369927467143833394430808293426, 2130753192827332532204262138810916724015154, 2373897701167245102119182632399228161554984730674, 2373897701167245102119181091708716382500769759282,
  2644787915642841775212205084445781426340718699207458866, 2373897701167245102119182632399228162796230279218, 2644787915642841775212206800947568886909254809994395698, 2373897701167245102119184173089739943091690799154,
  2644787915642841775212208517449356347477790920781332530, 2130739806200656513321731814583526349602866, 2373882786965825829369927467123090037683546751026, 2130753192827332532204262138884150211379309,
  2130753192827332532204262138870496510345325, 2373897701167245102119182632399228223617262157933, 2373897701167245102119182632399228237270963191917, 2130753192827332532204262138871737755893859,
  2130753192827332532204262138885391456927843, 2373897701167245102119182632399228236029717643363, 2373897701167245102119182632399228222376016609379, 2130739806200656513321731814656759836967021,
  2130739806200656513321731814644347381481581, 2373882786965825829369927467123090110917034115172, 2373882786965825829369927467123090098504578629732, 2373897701167245090103673201556271970611642761325,
  2373897701167245090103673201556271970611642761315, 2644787915642841761825583557932261277722099641193857133, 2644787915642841761825583557932261277722099641193857123, 2373897701167245090103673201556272043845130125362,
  2373897701167245090103673201556272031432674639922, 2373897701167245090103673201556272030191429091378, 2373897701167245090103673201556272045086375673906, 2373882786965825817354419576970645699027907117106,
  2373882786965825817354419576970645686615451631666, 2373882786965825817354419576970645625794419753069, 2373882786965825817354419576970645625794419753060, 2644787915642841775212201651560839649718845612396380269,
  2644787915642841775212201651560839649718833199940894819, 3282831227134641537660267980995489540043907658870666511160689950769, 3282831227134641537660267980995489540043907658870666511160689950770, 3282831227134641537660267980995489540043926147156807862293760704561,
  3282831227134641537660267980995489540043926147156807862293760704562, 2644787915642841775212201651560839649718831958695346285, 2644787915642841775212201651560839649718846853641928803, 3282831227134641537660267980995489540043924606466296094410755670065,
  3282831227134641537660267980995489540043924606466296094410755670066, 3282831227134641537660267980995489540043909199561178279043694985265, 3282831227134641537660267980995489540043909199561178279043694985266, 2946589954272677735865222143443045485444868908975616191103075,
  2946589954272677735865222143443045485444868908963203735617645, 3657441664125429752805763601890378448315334316205930861520022066586845233, 3657441664125429752805763601890378448315334316205930861520022066586845234, 3657441664125429752805763601890378448315334316224419147661398024568569905,
  3657441664125429752805763601890378448315334316224419147661398024568569906, 2946589954272677735865222143443045485444868908961962490069091, 2946589954272677735865222143443045485444868908976857436651629, 3657441664125429752805763601890378448315334316222878457149605316652564529,
  3657441664125429752805763601890378448315334316222878457149605316652564530, 3657441664125429752805763601890378448315334316207471552031814774502850609, 3657441664125429752805763601890378448315334316207471552031814774502850610, 2644771299552070146410985197366498311441839652222271597,
  2644771299552070146410985197366498311441827239766786157, 3657418685956812299064800547918721064525336927013613845609025001683025969, 3657418685956812299064800547918721064525336927013613845609025001683025970, 3657418685956812299064800547918721064525336926998206940491222047077826609,
  3657418685956812299064800547918721064525336926998206940491222047077826610, 1382985860258988083, 1540801142744861731127345, 1540801142744861731127346,
  1716628124126786953580679659592, 1716628124126786953580679659602, 1540801142744861724442675, 1912515992627142858130350124696207432,
  1912515992627142858130350124696207442, 2130753192827332530663571627029380017946674, 2130753192827332530663571627030621263495217, 2373897701167245100402679304248147845148737273906,
  2373897701167245100402679304248147846389982822449, 2373897701167245100402680844938659625444197793842, 2373897701167245100402680844938659626685443342385, 2130757017577811393201437433952732828008520,
  2130757017577811393201437433952732828008530, 2130753192827332530663571627103854750859313, 2130753192827332530663571627029380017946733, 2130753192827332530663571627091442295373873,
  2130753192827332530663571627029380017946723, 2130757017577811393201437434025966315372616, 2130757017577811393201437434025966315372626, 2130757017577811393201437434013553859887176,
  2130757017577811393201437434013553859887186, 2373897701167245090103671660865760189074936692845, 2373897701167245090103671660865760189074936692835, 2373897701167245090103671660865760263549669605425,
  2373897701167245090103671660865760251137214119985, 2373901962367650596603458410747367790640333717576, 2373901962367650596603458410747367790640333717586, 2373901962367650596603458410747367778227878232136,
  2373901962367650596603458410747367778227878232146, 1382985860258988086, 1540801142744861734469681, 1540801142744861734469685,
  1540801142744861734469682, 1540801142744861734469684, 1540801142744861734469683, 1540801142744861724442678,
  1716625042745763396713483010157, 1912512559623567949439256948325154925, 2130753192827332535285643162371507645055026, 2373897701167245105552184666629853454722343632946,
  2373897701167245105552190829391900575904185712690, 2373897701167245105552186207320365235017804152882, 2373897701167245105552189288701388795608725192754, 2373897701167245105552187748010877015313264672818,
  2130753192827332535285643162444741132419181, 2130753192827332535285643162432328676933731, 2373897701167245105552187748010877076134296551533, 2373897701167245105552187748010877088546752036963,
  2373897701167245090103676282937295604436051165234, 2373897701167245090103676282937295592023595679794, 2373897701167245090103676282937295531202563801197, 2373897701167245090103676282937295531202563801187,
  2644787915642841779036952130423377515525767723931926637, 2644787915642841779036952130423377515525755311476441187, 2946589954272677740126424461324784703463683419951350138536045, 2946589954272677740126424461324784703463683419963762594021475,
  1716625042745763391748484104243, 1716609635840645588793878904883, 1716614257912180929680260464691, 1912512559623567943907708223499534387,
  1912500544111055719927955447990976563, 1912512559623568025497994196527415347, 2373897701167245201676258572700968738432390660145, 2373897701167245201676258572700968738432390660146,
  1912495394605693419812633088658047027, 2373876395165217652012306948687245741871345565745, 2373876395165217652012306948687245741871345565746, 1912500544111055801518241421018857523,
  1912512559623568008903355469573980211, 1912500544111055784923602694065422387, 2130753192827332532204262138812157969563698, 2373897701167245102119182632399228164037475827762,
  2130734069074938219514933104201600291831858, 2373876395165217569620247342300678748288839581746, 2130739806200656513321731814584767595151410, 2373897701167245102119184173089739944332936347698,
  2373897701167245102119181091708716383742015307826, 2373882786965825829369927467123090038924792299570, 2373897701167245090103673201556271971852888309869, 2373876395165217557604739452148234336399712583789,
  2373882786965825817354419576970645627035665301613, 2373897701167245090103673201556271971852888309870, 2373876395165217557604739452148234336399712583779, 2373882786965825817354419576970645627035665301604,
  2373897701167245199959756785240400202321574756461, 2946589954272677859439999480373796445415672444634123780882481, 2946589954272677859439999480373796445415672444634123780882482, 2373897701167245199959756785240400202321574756462,
  2946589954272677859439999480373796445415672444632882535333937, 2946589954272677859439999480373796445415672444632882535333938, 2373876395165217667460823035832362566868399030381, 2373876395165217667460823035832362566868399030371,
  2946563508292503893981167643962203201565590600852434272780337, 2946563508292503893981167643962203201565590600852434272780338, 2946563508292503893981167643962203201565590600840021817294897, 2946563508292503893981167643962203201565590600840021817294898,
  2373882786965825927210503160654773857504351748205, 2373882786965825906612481711127951424174908506212]

theorem hmCodes_eq : Data.hmFull.map textCode = hmCodes := by decide +kernel

/-- The number codes of the full table as numbers. -/
def numberCodes : List Nat := [
  1114161, 1114162, 1382949864167047266, 1382949864167047267,
  1382949864167047265, 1382951105412595810, 1382951105412595811, 1382951105412595809,
  1540763804839998522523697, 1540763804839998522523698, 1540763804839998522523699, 1540763804839998523637809,
  1540763804839998523637810, 1540763804839998523637811, 1540763804839998521409585, 1540763804839998521409586,
  1540763804839998521409587, 1382953587903692898, 1382953587903692899, 1382953587903692897,
  1540766570613119681429553, 1540766570613119681429554, 1540766570613119681429555, 1540766570613119682543665,
  1540766570613119682543666, 1540766570613119682543667, 1540766570613119680315441, 1540766570613119680315442,
  1540766570613119680315443, 1540767953499680260882481, 1540767953499680260882482, 1540767953499680260882483,
  1540767953499680261996593, 1540767953499680261996594, 1540767953499680261996595, 1540767953499680259768369,
  1540767953499680259768370, 1540767953499680259768371, 1540769336386240840335409, 1540769336386240840335410,
  1540769336386240840335411, 1716589606899947489321803710513, 1716589606899947489321803710514, 1716589606899947489321803710515,
  1540769336386240841449521, 1540769336386240841449522, 1540769336386240841449523, 1716589606899947489321804824625,
  1716589606899947489321804824626, 1716589606899947489321804824627, 1540769336386240839221297, 1540769336386240839221298,
  1540769336386240839221299, 1716589606899947489321802596401, 1716589606899947489321802596402, 1716589606899947489321802596403,
  1540758273281343704662114, 1540758273281343704662115, 1540758273281343704662113, 1540758273282584950210658,
  1540758273282584950210659, 1540758273282584950210657, 1716577281364790170609676058673, 1716577281364790170609676058674,
  1716577281364790170609676058675, 1716577281364790170609677172785, 1716577281364790170609677172786, 1716577281364790170609677172787,
  1716577281364790170609674944561, 1716577281364790170609674944562, 1716577281364790170609674944563, 1716577281366173057170255511601,
  1716577281366173057170255511602, 1716577281366173057170255511603, 1716577281366173057170256625713, 1716577281366173057170256625714,
  1716577281366173057170256625715, 1716577281366173057170254397489, 1716577281366173057170254397490, 1716577281366173057170254397491,
  1716577281367555943730834964529, 1716577281367555943730834964530, 1716577281367555943730834964531, 1716577281367555943730836078641,
  1716577281367555943730836078642, 1716577281367555943730836078643, 1716577281367555943730833850417, 1716577281367555943730833850418,
  1716577281367555943730833850419, 1716577281368938830291414417457, 1716577281368938830291414417458, 1716577281368938830291414417459,
  1912459348100511178093562513502371889, 1912459348100511178093562513502371890, 1912459348100511178093562513502371891, 1716577281368938830291415531569,
  1716577281368938830291415531570, 1716577281368938830291415531571, 1912459348100511178093562513503486001, 1912459348100511178093562513503486002,
  1912459348100511178093562513503486003, 1716577281368938830291413303345, 1716577281368938830291413303346, 1716577281368938830291413303347,
  1912459348100511178093562513501257777, 1912459348100511178093562513501257778, 1912459348100511178093562513501257779, 1241300140086,
  1241300140087, 1912459348103592559117190131681919074, 1912459348103592559117188890438598753, 1241300140088,
  1912459348105133249628970427142439010, 1912459348105133249628969185899118689, 1241300140089, 1241301254192,
  1912461064594595186103264174245216354, 1912461064594595186103262933001896033, 1241301254193, 1912461064596135876615044469705736290,
  1912461064596135876615043228462415969, 1241301254194, 1241301254195, 1241301254196,
  1241301254197, 1912461064602298638662165651547816034, 1912461064602298638662164410304495713, 1241301254198,
  2130695821607912642704641884026790565707875, 1912461064603839329173945947008335970, 2130695821607912642704568591041562404847713, 1912461064603839329173944705765015649,
  2130695821607912642704640501075685277892706, 1241301254199, 1912461064605380019685726242468855906, 1912461064605380019685725001225535585,
  1241301254200, 2130695821611345646279563021099012139581539, 1912461064606920710197506537929375842, 2130695821611345646279489728113783978721377,
  1912461064606920710197505296686055521, 2130695821611345646279561638147906851766370, 1241301254201, 2130695821613062148067023589635122926518371,
  1912461064608461400709286833389895778, 2130695821613062148066950296649894765658209, 1912461064608461400709285592146575457, 2130695821613062148067022206684017638703202,
  1241302368304, 2130697733972853063248811376271181611860067, 1912462781096382646671800285032153186, 2130697733972853063248738083285953450999905,
  1912462781096382646671799043788832865, 2130697733972853063248809993320076324044898, 1241302368305, 2130697733974569565036271944807292398796899,
  1912462781097923337183580580492673122, 2130697733974569565036198651822064237936737, 1912462781097923337183579339249352801, 2130697733974569565036270561856187110981730,
  1241302368306, 1912462781099464027695360875953193058, 1912462781099464027695359634709872737, 1241302368307,
  2130697733978002568611193081879513972670563, 1912462781101004718207141171413712994, 2130697733978002568611119788894285811810401, 1912462781101004718207139930170392673,
  2130697733978002568611191698928408684855394, 1241302368308, 1912462781102545408718921466874232930, 1912462781102545408718920225630912609,
  1241302368309, 1912462781104086099230701762334752866, 1912462781104086099230700521091432545, 1241302368310,
  2130697733983152073973574787487846333481059, 1912462781105626789742482057795272802, 2130697733983152073973501494502618172620897, 1912462781105626789742480816551952481,
  2130697733983152073973573404536741045665890, 1241302368311, 1912462781107167480254262353255792738, 1912462781107167480254261112012472417,
  1241302368312, 2130697733986585077548495924560067907354723, 1912462781108708170766042648716312674, 2130697733986585077548422631574839746494561,
  1912462781108708170766041407472992353, 2130697733986585077548494541608962619539554, 1241302368313, 2130697733988301579335956493096178694291555,
  1912462781110248861277822944176832610, 2130697733988301579335883200110950533431393, 1912462781110248861277821702933512289, 2130697733988301579335955110145073406476386,
  1241303482416, 2130699646348092494517744279732237379633251, 1912464497598170107240336395819090018, 2130699646348092494517670986747009218773089,
  1912464497598170107240335154575769697, 2130699646348092494517742896781132091818082, 1241303482417, 2130699646349808996305204848268348166570083,
  1912464497599710797752116691279609954, 2130699646349808996305131555283120005709921, 1912464497599710797752115450036289633, 2130699646349808996305203465317242878754914,
  1241303482418, 1912464497601251488263896986740129890, 1912464497601251488263895745496809569, 1241303482419,
  1912464497602792178775677282200649826, 1912464497602792178775676040957329505, 1241303482420, 1912464497604332869287457577661169762,
  1912464497604332869287456336417849441, 1241303482421, 1912464497605873559799237873121689698, 1912464497605873559799236631878369377,
  1241303482422, 2130699646358391505242507690948902101254243, 1912464497607414250311018168582209634, 2130699646358391505242434397963673940394081,
  1912464497607414250311016927338889313, 2130699646358391505242506307997796813439074, 1241303482423, 1540762421950955407409201,
  1540762421950955407409202, 1241303482425, 1912464497612036321846359054963769442, 1912464497612036321846357813720449121,
  1540763804827586022473777, 1540763804827586022473778, 2130701558723331925786609421754307303243874, 2130701558723331925786610804640867882696802,
  2130701558723331925786609421753066059923553, 2130701558723331925786610804639626639376481, 1241304596529, 2130701558725048427574137751729403934343267,
  1912466214101498258320652802066546786, 2130701558725048427574064458744175773483105, 1912466214101498258320651560823226465, 2130701558725048427574136368778298646528098,
  1241304596530, 2130701558726764929361598320265514721280099, 1912466214103038948832433097527066722, 2130701558726764929361525027280286560419937,
  1912466214103038948832431856283746401, 2130701558726764929361596937314409433464930, 1241304596531, 2130701558728481431149058888801625508216931,
  1912466214104579639344213392987586658, 2130701558728481431148985595816397347356769, 1912466214104579639344212151744266337, 2130701558728481431149057505850520220401762,
  1241304596532, 2130701558730197932936519457337736295153763, 1912466214106120329855993688448106594, 2130701558730197932936446164352508134293601,
  1912466214106120329855992447204786273, 2130701558730197932936518074386631007338594, 1241304596533, 1912466214107661020367773983908626530,
  1912466214107661020367772742665306209, 1241304596534, 1912466214109201710879554279369146466, 1912466214109201710879553038125826145,
  1241304596535, 2130701558735347438298901162946068655964259, 1912466214110742401391334574829666402, 2130701558735347438298827869960840495104097,
  1912466214110742401391333333586346081, 2130701558735347438298899779994963368149090, 1241304596536, 1912466214112283091903114870290186338,
  1912466214112283091903113629046866017, 1540763804838757232410673, 1540763804838757232410674, 2130701558738780441873754538579304385675362,
  2130701558738780441873755921465864965128290, 2130701558738780441873754538578063142355041, 2130701558738780441873755921464623721807969, 1241305710640,
  2130703471098571357055610086654348915179619, 1912467930601745028377408617392963682, 2130703471098571357055536793669120754319457, 1912467930601745028377407376149643361,
  2130703471098571357055608703703243627364450, 1241305710641, 2130703471100287858843070655190459702116451, 1241305710642,
  2130703471102004360630531223726570489053283, 1912467930604826409400969208314003554, 2130703471102004360630457930741342328193121, 1912467930604826409400967967070683233,
  2130703471102004360630529840775465201238114, 1241305710643, 2130703471103720862417991792262681275990115, 1912467930606367099912749503774523490,
  2130703471103720862417918499277453115129953, 1912467930606367099912748262531203169, 2130703471103720862417990409311575988174946, 1241305710644,
  2130703471105437364205452360798792062926947, 1912467930607907790424529799235043426, 2130703471105437364205379067813563902066785, 1912467930607907790424528557991723105,
  2130703471105437364205450977847686775111778, 1241305710645, 1912467930609448480936310094695563362, 1912467930609448480936308853452243041,
  1241305710646, 1912467930610989171448090390156083298, 1912467930610989171448089148912762977, 1241305710647,
  2130703471110586869567834066407124423737443, 1912467930612529861959870685616603234, 2130703471110586869567760773421896262877281, 1912467930612529861959869444373282913,
  2130703471110586869567832683456019135922274, 1540765187724076566315057, 1540765187724076566315058, 2373842305607870533667314522492183383662460207203,
  2373842305607870533667316063182695163957920727139, 2130703471112303371355226873504249366511714, 2130703471112303371355228256390809945964642, 2373842305607870533667314522418890398434299347041,
  2373842305607870533667316063109402178729759866977, 2130703471112303371355226873503008123191393, 2130703471112303371355228256389568702644321, 2373842305607870533667314522490800432557172392034,
  2373842305607870533667316063181312212852632911970, 1241305710649, 1540766570600707181379633, 1540766570600707181379634,
  1241306824753, 1241306824754, 1912469647106613869969505319100940386, 1912469647106613869969504077857620065,
  1241306824755, 2130705383478960293686924695723737043763299, 1241306824756, 2130705383480676795474385264259847830700131,
  1912469647109695250993065910021980258, 2130705383480676795474311971274619669839969, 1912469647109695250993064668778659937, 2130705383480676795474383881308742542884962,
  1241306824757, 1241306824758, 1241306824759, 1241306824760,
  1241306824761, 1241307938864, 1241307938865, 1241307938866,
  1241307938867, 1241307938868, 1540767953493473988575281, 1540767953493473988575282,
  1540767953494715234123825, 1540767953494715234123826, 1241307938871, 1540767953497197725220913,
  1540767953497197725220914, 1241307938873, 1241309052976, 1241309052977,
  1241309052978, 1241309052979, 1241309052980, 1241309052981,
  1241309052982, 1241309052983, 1241309052984, 1241309052985,
  1382947381664809008, 1382947381664809009, 1382947381664809010, 1382947381664809011,
  1382947381664809012, 1382947381664809013, 1382947381664809014, 1382947381664809015,
  1382947381664809016, 1382947381664809017, 1382947381665923120, 1382947381665923121,
  1382947381665923122, 1382947381665923123, 1382947381665923124, 1382947381665923125,
  1382947381665923126, 1382947381665923127, 1382947381665923128, 1382947381665923129,
  1382947381667037232, 1382947381667037233, 1382947381667037234, 1382947381667037235,
  1382947381667037236, 1716577281364790164403403751473, 1716577281364790164403403751474, 1716577281364790165644649300017,
  1716577281364790165644649300018, 1382947381667037239, 1382947381667037240, 1716577281364790169368385945649,
  1716577281364790169368385945650, 1716577281366173044757755461681, 1716577281366173044757755461682, 1382947381668151345,
  1382947381668151346, 1716577281366173048481492107313, 1716577281366173048481492107314, 1716577281366173049722737655857,
  1716577281366173049722737655858, 1382947381668151349, 1382947381668151350, 1716577281366173053446474301489,
  1716577281366173053446474301490, 1716577281366173054687719850033, 1716577281366173054687719850034, 1382947381668151353,
  1382947381669265456, 1716577281367555932559580463153, 1716577281367555932559580463154, 1716577281367555933800826011697,
  1716577281367555933800826011698, 1382947381669265459, 1382947381669265460, 1382947381669265461,
  1716577281367555938765808205896, 1716577281367555938765808205906, 1382947381669265463, 1716577281367555941248299302984,
  1716577281367555941248299302994, 1382947381669265465, 1382947381670379568, 1382947381670379569,
  1382947381670379570, 1382947381670379571, 1382947381670379572, 1716577281368938824085142110280,
  1716577281368938824085142110290, 1382947381670379574, 1382947381670379575, 1382947381670379576,
  1382947381670379577, 1716577281370321704439493820488, 1716577281370321704439493820498, 1716577281370321705680739369032,
  1716577281370321705680739369042, 1382947381671493682, 1382947381671493683, 1382947381671493684,
  1382947381671493685, 1716577281370321711886967111752, 1716577281370321711886967111762, 1716577281370321713128212660296,
  1716577281370321713128212660306, 1382947381671493688, 1382947381671493689, 1382947381672607792,
  1382947381672607793, 1382947381672607794, 1382947381672607795, 1382947381672607796,
  1382947381672607797, 1382947381672607798, 1382947381672607799, 1382947381672607800,
  1382947381672607801, 1382947381673721904, 1382947381673721905, 1382947381673721906,
  1382947381673721907, 1382947381673721908, 1382947381673721909, 1382947381673721910,
  1382947381673721911, 1382947381673721912, 1382947381673721913, 1382947381674836016,
  1382947381674836017, 1382947381674836018, 1382947381674836019, 1382947381674836020,
  1382947381674836021, 1382947381674836022, 1382947381674836023, 1382947381674836024,
  1382947381674836025, 1382948622910357552, 1716578822052536166612723171377, 1716578822052536166612723171378,
  1382948622910357554, 1716578822052536169095214268465, 1716578822052536169095214268466, 1382948622910357556,
  1382948622910357557, 1382948622910357558, 1382948622910357559, 1382948622910357560,
  1382948622910357561, 1382948622911471664, 1382948622911471665, 1382948622911471666,
  1382948622911471667, 1382948622911471668, 1382948622911471669, 1382948622911471670,
  1382948622911471671, 1382948622911471672, 1382948622911471673, 1382948622912585776,
  1382948622912585777, 1716578822055301940975127625777, 1716578822055301940975127625778, 1382948622912585779,
  1716578822055301943457618722865, 1716578822055301943457618722866, 1382948622912585781, 1382948622912585782,
  1716578822055301947181355368497, 1716578822055301947181355368498, 1716578822055301948422600917041, 1716578822055301948422600917042,
  1382948622912585785, 1382948622913699888]

theorem numberCodes_eq : Data.numberAndChoice.map textCode = numberCodes := by decide +kernel

/-- The Hall symbols of the default table as numbers. -/
def defaultHallCodes : List Nat := [
  1382985860258988081, 1540752741774821215436849, 1540801142744861730013305, 1716625042745763391748583260258,
  1540783165219574197125241, 1716625042745763385542276415609, 1912512559623567936993276661946974307, 1716605013769110241701289656441,
  1912490245100330949602307221716795491, 1716571118644229613972779827321, 1912452482134959943682441678976254050, 1716571118626252088685246939257,
  1912452482134959943682441678976254051, 2130686259776344492775932463847592352153699, 1912452482114930967029297837989494883, 1716625042745763391748484104242,
  1912512559623567943907770285776961586, 2130753192827332529122881115250325875392610, 2644787915642841771387536997772267907220852852187529314, 1912490245100330956516800845546782770,
  1716605013769110247907497345074, 1716609635840645588793878904882, 1716614257912180929680260464690, 2644771299552070142586320543577926568943846892013420642,
  1912512559623567943907687122339692594, 2130753192827332529122973768627542220931122, 2130753192827332529122881115244119595286627, 2130753192827332529122881115244119595286625,
  2644787915642841771387540430672616582046170565439455331, 2373897701167245098686151325066856570543973466211, 2373897701167245098686251470024798141677718798386, 2373897701167245098686151325066856570543972352098,
  2373897701167245098686254551313168318846014193774, 2130753192827332529122881115244119595286638, 1912490245100330956516717682109513778, 2130728331949219922626846023633817239879730,
  2130728331949219922626753370250394614235235, 1912486812096756035379645460535640114, 2130724507198741060088887563328283078688866, 2130724507198741060088887563328283078688865,
  2373865742164203799937750700954800117364208762978, 1912495394605693338222326014470324274, 2373876395165217566187217575658818935090823364708, 1912500544111055719927934346831134770,
  2130739806200656510240350791016729220874339, 2130739806200656510240350791016729220874337, 1912452482134959943682441678877098034, 2946497393456007796866625537157014223359732637387152668360803,
  2130686259776344492775932463737121444855907, 2644704835291252402690775736332625645679907080605139042, 2373823130251942715535579669128979451266494234721, 2644704835291252402690775736332625554409416424834596963,
  2373823130251942715535579669128979534429925933106, 2644704835291252402690775736332625554409416424833482851, 2373823130251942715535579669039091847171302031458, 2946497393456007796866625537157014223359732637387152667246691,
  2373823130251942715535579669131745224387653140578, 2130686259776344492775932463737121444855918, 2644704835291252402690775736332625645679907080605139041, 2644704835291252402690775736352654531062560265820242018,
  2946497393456007796866625537157014224900423149167448127766626, 2644704835291252402690775736332625647062793641184591982, 2130686259754029969538945072850844646375474, 2373823130227081837422973173002617427265524334642,
  1912452482114930967029297837890338866, 2130686259754029969538945072767681214677091, 2130686259754029969538945072848362155278386, 2644704835263554600054983487720292014472270631165558883,
  1912452482119553038564638724271898674, 2946497393432270524335727249739266869435128133706763105337463, 1912452482124175110099979610653458482, 2130686259764328980263708483984345936298083,
  2373823130238556088859560786600038110436699275363, 2130686259764328980263708484066268122447922, 1382985860258988084, 1540801142744861732241457,
  1540801142744861732241507, 1540801142744861732241459, 1382977171540148276, 1716614257912180932162770501730,
  1540801142744861724442676, 1540791462538937668272180, 1540752741774821215436852, 1716571118644229613972782055523,
  1716571118644229613972782055521, 1912452482134959943682444161441726563, 1540752741766132496597044, 1912452482124175110099982093216972900,
  1716625042745763394230975201330, 2644787915642841775212287476633265082515994668262555746, 2130753192827332532204285647860104174895203, 2644787915642841775212208517569530182504697117604184183,
  1912512559623567946673543406935867442, 2130753192827332532204370003940299521523822, 2130753192827332532204288413633225333801059, 2946589954272677735865220231175945548152807308149985097416823,
  1716614257912180932162751561778, 2644771299552070146410988630353125636949255390316593271, 1912512559623567946673460243498598450, 2373897701167245102119154899987993642765546225762,
  2373897701167245102119258126234305391067588067427, 2373897701167245102119275073829934974317653786734, 2130753192827332532204262138804710516326499, 2130753192827332532204262138804710516326510,
  2130753192827332532204354792188133141970994, 2644787915642841775212290909535154447853092676975001698, 1912500544111055722693707467990040626, 2373882786965825829369901275402367297948323217506,
  2373882786965825829369927467214360528339385253938, 2644771299552070146410988630353125636949249184035373155, 1912512559623567936993279144338915378, 2130753192827332521419456214057717689614435,
  2373897701167245090103673201556271970611715178594, 2130753192827332521419456214057717689614446, 2130753192827332521419456214057717684043826, 2373897701167245090103673201556271964405435072611,
  2644787915642841761825583557932261270807668079614558306, 2373897701167245090103673201556271964405435072622, 2130739806200656502536925889830327309631538, 2373882786965825817354419576970645619588212064355,
  1912500544111055713013526368830357554, 2373882786965825817354419576970645625794493284471, 1912452482134959943682444161368195122, 2130686259776344492775935229510242603761763,
  2373823130251942715535582750510003011857415274594, 2644704835291252402690779169336200475546488646408470627, 2373823130251942715535582750420115407762223071330, 2130686259776344492775935229510242603761774,
  2373823130251942715535582750510003011857415274593, 2644704835291252402690779169336200475546488646407356515, 2130686259776344492775935229593406035460146, 2373823130251942715535582750512768784978574180451,
  2644704835291252402690779169336200568199865862758465634, 2946497393456007796866629361907493087438288956089559664427107, 2644704835291252402690779169339281856570049237328396386, 2373823130251942715535582750527980537144948162670,
  2644704835291252402690779169336200568199865862758465633, 2946497393456007796866629361907493087438288956089559663312995, 1912452482124175110099982093144555570, 2130686259764328980263711249757467095203939,
  2373823130238556088859563867981061755432297562162, 2644704835276338201271506420084116674468187901575430243, 1382985860258988083, 1540801142744861731127345,
  1540801142744861731127346, 1382988342750085171, 1540752741774821215436851, 1540752741777303706533939,
  1716625042745763392989729652786, 1912512559623567945290573682924716066, 5057826923422406236988703266083495091848177669477457767804812583559615355820868113258315817, 2130753192827332530663595136079808714375202,
  5634985669307983857503961830361871273572335374752362818469691922038563636162642239567385847726121, 2130753192827332530663596518966369293828130, 1912515992627142866427645904498589730, 2130753192827332530663571627024415055806498,
  1912512559623567945290573682919145522, 2373897701167245100402653112527425106654689099875, 2130753192827332530663571627024415055806563, 2130757017577811393201437433946526591352866,
  2373901962367650606902439862409032633745324245091, 1912452482134959943682442920122646578, 2130686259776344492775933846623682024308835, 2130686259776344492775933846623682024308770,
  2373823130251942715535581209729603627466692362339, 2130686259779777496350854983695903598182434, 2373823130255767466014443747595410549578227908707, 1382985860258988086,
  1540801142744861734469681, 1540801142744861734469685, 1540801142744861734469682, 1540801142744861734469684,
  1540801142744861734469731, 1540801142744861724442678, 1540752741774821215436854, 1716571118644229613972784283747,
  1716625042745763396713466298418, 5057826923422406247960240435252904627213185109938140975894715495794125937179867702467035177, 4539783184655049266106328237766913688782268939689136653568621049897235318351868264489, 5057826923422406247960243717848421406319195675396253787371125973755436059948330816578322473,
  5634985669307983869727490363337653249443448642418057879285893030760203285337841191062547172753449, 2130753192827332535285735815748724068581475, 1912512559623567949439233364657504306, 2130753192827332535285643162365301437366371,
  2130753192827332535285735815748724063010866, 2373897701167245105552261701155442463289161941091, 1912512559623567936993281626830012466, 2130753192827332521419458979914002280218674,
  2130753192827332521419458979830838842949682, 2644787915642841761825586991039062438256488603230273635, 1912452482134959943682446643859292210, 2130686259776344492775937995283363762667619,
  2130686259776344492775937995366527194366002, 2373823130251942715535585831893792345569495220323, 2130753192827332529122881115250325802975283, 2130734069074938216433552080639768125243443,
  2130739806200656510240350791022935428562995, 3282831227134641532912920004804933584489274397069016773712045670451, 2644771299552070142586322259976487790115122118335135795, 2373823130251942715535579669039091847171229614131,
  3657326773423768593754055539274696773931361476134796156737778233078972467, 2373823130232818963141266979710057236613551882291, 3657326773394304809890502271319784786328411247745778146727260115703955507, 2373823130238556088859560786508767619780855201843,
  3657326773423768593754055539274696775843736715566065088258351487021744179, 2946497393439391706094996735942276429120306043436714275373107, 2130753192827332532204262138810916724015155, 2373897701167245102119275073829934980523861475379,
  2130734069074938219514933104200359046283315, 2373876395165217569620325917516779542116080549939, 2130739806200656513321731814583526349602867, 3657441664125429752805875167182064861685775680151077242320326898019729459,
  3282831227134641537660376641586706203394083138467946000016037904435, 2946571442086555974958333071330146645385442228081595705720883, 2373897701167245090103673201556271970611642761267, 2373876395165217557604739452148234335158467035187,
  2373882786965825817354419576970645625794419753011, 2644787915642841761825583558052435112749005837929807923, 2644764178370310863538131480614999891009414073329647667, 3282810602485937033756589595523819839677607499953072755646046142515,
  2373823130251942715535582750420115407762150654003, 3282728104018059758582674171653480823626454958084350178898762268723, 2644704835291252402690779169356229452199632487321698355, 3657326773423768593754060286731333555703980380943537555667004537071206451,
  2373823130232818963141270061091080797204472922163, 2644704835269946400663246670405532448532413784080252979, 3657326773394304809890507018776421568101030152554519545656486419696189491, 3657326773394304809890507018774290931563147353467034879686962814790926387,
  2373823130238556088859563867889791180371776241715, 3282728103999547572460913264674527100221962971368659193765377867827]

theorem defaultHallCodes_eq : Data.defaultHallName.map textCode = defaultHallCodes := by decide +kernel

/-- The number codes of the default table as numbers. -/
def defaultNumberCodes : List Nat := [
  1114161, 1114162, 1382949864167047266, 1382951105412595810,
  1540763804839998522523697, 1382953587903692898, 1540766570613119681429553, 1540767953499680260882481,
  1540769336386240840335409, 1540758273281343704662114, 1540758273282584950210658, 1716577281364790170609676058673,
  1716577281366173057170255511601, 1716577281367555943730834964529, 1716577281368938830291414417457, 1241300140086,
  1241300140087, 1241300140088, 1241300140089, 1241301254192,
  1241301254193, 1241301254194, 1241301254195, 1241301254196,
  1241301254197, 1241301254198, 1241301254199, 1241301254200,
  1241301254201, 1241302368304, 1241302368305, 1241302368306,
  1241302368307, 1241302368308, 1241302368309, 1241302368310,
  1241302368311, 1241302368312, 1241302368313, 1241303482416,
  1241303482417, 1241303482418, 1241303482419, 1241303482420,
  1241303482421, 1241303482422, 1241303482423, 1540762421950955407409201,
  1241303482425, 1540763804827586022473777, 1241304596529, 1241304596530,
  1241304596531, 1241304596532, 1241304596533, 1241304596534,
  1241304596535, 1241304596536, 1540763804838757232410673, 1241305710640,
  1241305710641, 1241305710642, 1241305710643, 1241305710644,
  1241305710645, 1241305710646, 1241305710647, 1540765187724076566315057,
  1241305710649, 1540766570600707181379633, 1241306824753, 1241306824754,
  1241306824755, 1241306824756, 1241306824757, 1241306824758,
  1241306824759, 1241306824760, 1241306824761, 1241307938864,
  1241307938865, 1241307938866, 1241307938867, 1241307938868,
  1540767953493473988575281, 1540767953494715234123825, 1241307938871, 1540767953497197725220913,
  1241307938873, 1241309052976, 1241309052977, 1241309052978,
  1241309052979, 1241309052980, 1241309052981, 1241309052982,
  1241309052983, 1241309052984, 1241309052985, 1382947381664809008,
  1382947381664809009, 1382947381664809010, 1382947381664809011, 1382947381664809012,
  1382947381664809013, 1382947381664809014, 1382947381664809015, 1382947381664809016,
  1382947381664809017, 1382947381665923120, 1382947381665923121, 1382947381665923122,
  1382947381665923123, 1382947381665923124, 1382947381665923125, 1382947381665923126,
  1382947381665923127, 1382947381665923128, 1382947381665923129, 1382947381667037232,
  1382947381667037233, 1382947381667037234, 1382947381667037235, 1382947381667037236,
  1716577281364790164403403751473, 1716577281364790165644649300017, 1382947381667037239, 1382947381667037240,
  1716577281364790169368385945649, 1716577281366173044757755461681, 1382947381668151345, 1382947381668151346,
  1716577281366173048481492107313, 1716577281366173049722737655857, 1382947381668151349, 1382947381668151350,
  1716577281366173053446474301489, 1716577281366173054687719850033, 1382947381668151353, 1382947381669265456,
  1716577281367555932559580463153, 1716577281367555933800826011697, 1382947381669265459, 1382947381669265460,
  1382947381669265461, 1716577281367555938765808205896, 1382947381669265463, 1716577281367555941248299302984,
  1382947381669265465, 1382947381670379568, 1382947381670379569, 1382947381670379570,
  1382947381670379571, 1382947381670379572, 1716577281368938824085142110280, 1382947381670379574,
  1382947381670379575, 1382947381670379576, 1382947381670379577, 1716577281370321704439493820488,
  1716577281370321705680739369032, 1382947381671493682, 1382947381671493683, 1382947381671493684,
  1382947381671493685, 1716577281370321711886967111752, 1716577281370321713128212660296, 1382947381671493688,
  1382947381671493689, 1382947381672607792, 1382947381672607793, 1382947381672607794,
  1382947381672607795, 1382947381672607796, 1382947381672607797, 1382947381672607798,
  1382947381672607799, 1382947381672607800, 1382947381672607801, 1382947381673721904,
  1382947381673721905, 1382947381673721906, 1382947381673721907, 1382947381673721908,
  1382947381673721909, 1382947381673721910, 1382947381673721911, 1382947381673721912,
  1382947381673721913, 1382947381674836016, 1382947381674836017, 1382947381674836018,
  1382947381674836019, 1382947381674836020, 1382947381674836021, 1382947381674836022,
  1382947381674836023, 1382947381674836024, 1382947381674836025, 1382948622910357552,
  1716578822052536166612723171377, 1382948622910357554, 1716578822052536169095214268465, 1382948622910357556,
  1382948622910357557, 1382948622910357558, 1382948622910357559, 1382948622910357560,
  1382948622910357561, 1382948622911471664, 1382948622911471665, 1382948622911471666,
  1382948622911471667, 1382948622911471668, 1382948622911471669, 1382948622911471670,
  1382948622911471671, 1382948622911471672, 1382948622911471673, 1382948622912585776,
  1382948622912585777, 1716578822055301940975127625777, 1382948622912585779, 1716578822055301943457618722865,
  1382948622912585781, 1382948622912585782, 1716578822055301947181355368497, 1716578822055301948422600917041,
  1382948622912585785, 1382948622913699888]

theorem defaultNumberCodes_eq : Data.defaultNumberAndChoice.map textCode = defaultNumberCodes := by decide +kernel

end Verif
