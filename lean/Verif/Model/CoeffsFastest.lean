import Verif.Model.Coeffs

/-! Generated from src/fastest_coeffs.h: the entries of `coeffs`, in the order of the header, `128` (`increment`) entries per row, each
multiplied by `10^27` (the header writes at most 27 decimals, so nothing is rounded); `p` marks non-negative and `m` negative entries. -/

set_option maxRecDepth 100000

namespace Verif.Fastest
open Verif.Coeffs

/-- src/fastest_coeffs.h:29-156 -/
def row0 : List ℤ := [
  p 831472372954840555082000000, p 831414005540308198583000000, p 831238918266223869580000000, p 830947156036480505392000000,
  p 830538793675450581766000000, p 830013935904800659316000000, p 829372717311066987023000000, p 828615302303967515840000000,
  p 827741885065490623496000000, p 826752689489751890761000000, p 825647969113678215081000000, p 824428007038499943704000000,
  p 823093115842108757896000000, p 821643637482293187624000000, p 820079943190897053817000000, p 818402433358933589780000000,
  p 816611537412689103554000000, p 814707713680854150873000000, p 812691449252757824873000000, p 810563259827706050764000000,
  p 808323689555523805517000000, p 805973310868314363198000000, p 803512724303517833491000000, p 800942558318331943035000000,
  p 798263469095534694553000000, p 795476140340800830231000000, p 792581283071560838138000000, p 789579635397499868255000000,
  p 786471962292734527722000000, p 783259055359786127148000000, p 779941732585400893107000000, p 776520838088307852054000000,
  p 772997241859018080490000000, p 769371839491718167992000000, p 765645551908390675777000000, p 761819325075220210586000000,
  p 757894129711408459649000000, p 753870960990470018181000000, p 749750838234153449413000000, p 745534804599028211314000000,
  p 741223926755909090502000000, p 736819294562192195208000000, p 732322020727209643809000000, p 727733240470738174110000000,
  p 723054111174766811487000000, p 718285812028632841830000000, p 713429543667664534112000000, p 708486527805442301009000000,
  p 703458006859804640953000000, p 698345243572719653891000000, p 693149520624175785599000000, p 687872140240182283755000000,
  p 682514423795047564525000000, p 677077711408058502407000000, p 671563361534684655219000000, p 665972750552474845875000000,
  p 660307272341742135247000000, p 654568337861228477514000000, p 648757374718860524432000000, p 642875826737744904271000000,
  p 636925153517562181449000000, p 630906829991492501541000000, p 624822345978837789815000000, p 618673205733470954470000000,
  p 612460927488293727095000000, p 606187042995817604307000000, p 599853097065060292259000000, p 593460647094893878339000000,
  p 587011262603992944875000000, p 580506524757569142281000000, p 573948025891025337408000000, p 567337369030688098981000000,
  p 560676167411809700525000000, p 553966043993961543279000000, p 547208630974010734604000000, p 540405569296826038261000000,
  p 533558508163880174102000000, p 526669104539922661168000000, p 519739022657876970079000000, p 512769933522119303326000000,
  p 505763514410336290084000000, p 498721448374081555155000000, p 491645423738241937883000000, p 484537133599546865348000000,
  p 477398275324308896117000000, p 470230550045545592219000000, p 463035662159660077464000000, p 455815318822846149427000000,
  p 448571229447379538069000000, p 441305105197960123586000000, p 434018658488283970431000000, p 426713602477997000495000000,
  p 419391650570203500248000000, p 412054515909689722530000000, p 404703910882034223473000000, p 397341546613763640927000000,
  p 389969132473721613596000000, p 382588375575806771689000000, p 375200980283257823356000000, p 367808647714624070701000000,
  p 360413075251609871241000000, p 353015956048925771960000000, p 345618978546330835044000000, p 338223825983006376461000000,
  p 330832175914426429575000000, p 323445699731881031180000000, p 316066062184803764357000000, p 308694920906066150312000000,
  p 301333925940378832831000000, p 293984719275965256102000000, p 286648934379644393378000000, p 279328195735489559492000000,
  p 272024118387182545220000000, p 264738307484245039003000000, p 257472357832259801658000000, p 250227853447243409057000000,
  p 243006367114305704691000000, p 235809459950733935063000000, p 228638680973647728800000000, p 221495566672345989279000000,
  p 214381640585498134399000000, p 207298412883298144305000000, p 200247379954717363848000000, p 193230023999986955108000000,
  p 186247812628430653437000000, p 179302198461779749294000000, p 172394618743085786816000000, p 165526494951356295537000000]

/-- src/fastest_coeffs.h:157-284 -/
def row1 : List ℤ := [
  p 158699232422028796430000000, p 151914219973401071195000000, p 145172829539132269838000000, p 138476415806921215879000000,
  p 131826315863480453272000000, p 125223848845901208904000000, p 118670315599523901184000000, p 112166998342411894374000000,
  p 105715160336527447260000000, p 99316045565708652165200000, p 92970878420540553621600000, p 86680863390215384667300000,
  p 80447184761467782632100000, p 74271006324674551657400000, p 68153471087200198641500000, p 62095700994075964107600000,
  p 56098796656083554923500000, p 50163837085324770870300000, p 44291879438350535702600000, p 38483958766917153449000000,
  p 32741087776440074008600000, p 27064256592210862023600000, p 21454432533437126778800000, p 15912559895166957652000000,
  p 10439559738155180374000000, p 5036329686723057738610000, m 296256265336385191805000, m 5557347940758283581790000,
  m 10746119156668763189300000, m 15861767894264546668900000, m 20903516460274360749800000, m 25870611640162279043500000,
  m 30762324843041484456800000, m 35577952238265972417800000, m 40316814883676978242800000, m 44978258845472712801300000,
  m 49561655309687542569900000, m 54066400685255679159400000, m 58491916698647464234500000, m 62837650480063386715400000,
  m 67103074641178261927600000, m 71287687344426947655400000, m 75391012363828238673800000, m 79412599137348369171500000,
  m 83352022810800827090600000, m 87208884273295969591400000, m 90982810184239037987200000, m 94673452991895529207200000,
  m 98280490943532750058900000, m 101803628087157427284000000, m 105242594264867719844000000, m 108597145097841310535000000,
  m 111867061962988789681000000, m 115052151961296145188000000, m 118152247877890054228000000, m 121167208133862752684000000,
  m 124096916729885473063000000, m 126941283181660202750000000, m 129700242447243679900000000, m 132373754846295377252000000,
  m 134961805971292009287000000, m 137464406590764143257000000, m 139881592544604443917000000, m 142213424631507739937000000,
  m 144459988488595730827000000, m 146621394463294696386000000, m 148697777477524800682000000, m 150689296884269657850000000,
  m 152596136316595465399000000, m 154418503529190731527000000, m 156156630232500315270000000, m 157810771919529219121000000,
  m 159381207685401427021000000, m 160868240039743037872000000, m 162272194711985145998000000, m 163593420449666626659000000,
  m 164832288809824062392000000, m 165989193943563151379000000, m 167064552373901109572000000, m 168058802766975601273000000,
  m 168972405696717037360000000, m 169805843403086798027000000, m 170559619543971530131000000, m 171234258940853617537000000,
  m 171830307318344255307000000, m 172348331037702334756000000, m 172788916824434257702000000, m 173152671490098081231000000,
  m 173440221648409775845000000, m 173652213425782242506000000, m 173789312166397952319000000, m 173852202131942051855000000,
  m 173841586196111674845000000, m 173758185534021086793000000, m 173602739306629005878000000, m 173376004340306061335000000,
  m 173078754801670009478000000, m 172711781867818603420000000, m 172275893392080048372000000, m 171771913565416961545000000,
  m 171200682573611373538000000, m 170563056250360139954000000, m 169859905726417126370000000, m 169092117074913228514000000,
  m 168260590952989147473000000, m 167366242239875284703000000, m 166409999671557895518000000, m 165392805472166642966000000,
  m 164315614982222552021000000, m 163179396283883837437000000, m 161985129823331186483000000, m 160733808030429803360000000,
  m 159426434935813571281000000, m 158064025785527417778000000, m 156647606653372045704000000, m 155178214051094831571000000,
  m 153656894536566474008000000, m 152084704320088470730000000, m 150462708868975059140000000, m 148791982510548842500000000,
  m 147073608033699704256000000, m 145308676289147314931000000, m 143498285788550977715000000, m 141643542302611558092000000,
  m 139745558458309881988000000, m 137805453335422323224000000, m 135824352062461073398000000, m 133803385412180564362000000]

/-- src/fastest_coeffs.h:285-412 -/
def row2 : List ℤ := [
  m 131743689396791985313000000, m 129646404863030306753000000, m 127512677087215337002000000, m 125343655370452389253000000,
  m 123140492634104758984000000, m 120904345015691472298000000, m 118636371465341922127000000, m 116337733342949820048000000,
  m 114009594016166518338000000, m 111653118459372716065000000, m 109269472853762789066000000, m 106859824188683741331000000,
  m 104425339864360325337000000, m 101967187296145456177000000, m 99486533520426356780300000, m 96984544802323602308300000,
  m 94462386245311794064100000, m 91921221402894812135800000, m 89362211892467124929600000, m 86786517011484820560700000,
  m 84195293356080599944700000, m 81589694442244398153700000, m 78970870329696143952200000, m 76339967248573947777900000,
  m 73698127229061050069700000, m 71046487734071045450100000, m 68386181295111314604200000, m 65718335151442291985900000,
  m 63044070892650114212900000, m 60364504104743740842100000, m 57680744019894814034200000, m 54993893169926769126700000,
  m 52305047043666105799400000, m 49615293748260992645600000, m 46925713674577804179800000, m 44237379166772908267700000,
  m 41551354196149560549200000, m 38868694039395350337000000, m 36190444961301193593800000, m 33517643902057324412100000,
  m 30851318169222867460200000, m 28192485134459571716200000, m 25542151935121302358500000, m 22901315180788753972400000,
  m 20270960664834268560900000, m 17652063081102502273300000, m 15045585745788878778700000, m 12452480324595468705300000,
  m 9873686565242850363130000, m 7310132035413110379580000, m 4762731866198076022270000, m 2232388501122978697460000,
  p 280008549183706099625000, p 2773582946609768999650000, p 5247471759402745628000000, p 7700825690174399086600000,
  p 10132809298008764800600000, p 12542601214614066546000000, p 14929394354466257038800000, p 17292396118888466588500000,
  p 19630828594019530952700000, p 21943928742620973093600000, p 24230948589679373456100000, p 26491155401760339144200000,
  p 28723831860073354566000000, p 30928276227210334953200000, p 33103802507521706832700000, p 35249740601098152048600000,
  p 37365436451325360900400000, p 39450252185985822117600000, p 41503566251881715554200000, p 43524773542953754113000000,
  p 45513285521878769912500000, p 47468530335124443919600000, p 49389952921447821676500000, p 51277015113824271630400000,
  p 53129195734793577266000000, p 54945990685219457672100000, p 56726913026452122079700000, p 58471493055894024903900000,
  p 60179278375965532255100000, p 61849833956473559970500000, p 63482742190386465264100000, p 65077602943022685999500000,
  p 66634033594660579957700000, p 68151669076581461448300000, p 69630161900559206511500000, p 71069182181813961296500000,
  p 72468417655446509817500000, p 73827573686374076134000000, p 75146373272793068331900000, p 76424557043191246319400000,
  p 77661883246939747427200000, p 78858127738492697633700000, p 80013083955228977983700000, p 81126562888968106745900000,
  p 82198393051201315562300000, p 83228420432070335244200000, p 84216508453143268386800000, p 85162537914024047380800000,
  p 86066406932843494970200000, p 86928030880681822489800000, p 87747342309968612283900000, p 88524290876915198711400000,
  p 89258843258030615142000000, p 89950983060780323463700000, p 90600710728442238051100000, p 91208043439221730963600000,
  p 91773014999687874127000000, p 92295675732592660778200000, p 92776092359141512644300000, p 93214347875778896801400000,
  p 93610541425562118766900000, p 93964788164191320740700000, p 94277219120770278104600000, p 94547981053370602766400000,
  p 94777236299477818359800000, p 94965162621395135533800000, p 95111953046684641344100000, p 95217815703728017617800000,
  p 95282973652487681914800000, p 95307664710553116616000000, p 95292141274557637387100000, p 95236670137053627827100000,
  p 95141532298930950317700000, p 95007022777473568164700000, p 94833450410139075170700000, p 94621137654159026553200000]

/-- src/fastest_coeffs.h:413-540 -/
def row3 : List ℤ := [
  p 94370420382050415608600000, p 94081647673130958109400000, p 93755181601139686575800000, p 93391397018054156387000000,
  p 92990681334204752794800000, p 92553434294784922564700000, p 92080067752855793150600000, p 91571005438948901988800000,
  p 91026682727365970659900000, p 90447546399278322404300000, p 89834054402732815836100000, p 89186675609665019837100000,
  p 88505889570023810186700000, p 87792186263119076361500000, p 87046065846289724654600000, p 86268038401008398374800000,
  p 85458623676522169065900000, p 84618350831142913337500000, p 83747758171292027706800000, p 82847392888411475198000000,
  p 81917810793847148365100000, p 80959576051818013531200000, p 79973260910575799664800000, p 78959445431871638776400000,
  p 77918717218834032678400000, p 76851671142372485201500000, p 75758909066216448269200000, p 74641039570700007388400000,
  p 73498677675403273346100000, p 72332444560760197904700000, p 71142967288747444021300000, p 69930878522758158077900000,
  p 68696816246778383274800000, p 67441423483971613128700000, p 66165348014783451069400000, p 64869242094676177190500000,
  p 63553762171601996255900000, p 62219568603325420275100000, p 60867325374702248297300000, p 59497699815025333058800000,
  p 58111362315542876289000000, p 56708986047259199447800000, p 55291246679122066365300000, p 53858822096705394333300000,
  p 52412392121492887286900000, p 50952638230864627511000000, p 49480243278895760794500000, p 47995891218066237538000000,
  p 46500266821988454901700000, p 44994055409251526578300000, p 43477942568485340724100000, p 41952613884744756334000000,
  p 40418754667312005446300000, p 38877049679016853489500000, p 37328182867171488812400000, p 35772837096216938968000000,
  p 34211693882175847614100000, p 32645433129006529160400000, p 31074732866950623144700000, p 29500268992967322578800000,
  p 27922715013344021062200000, p 26342741788574135924900000, p 24761017280588232952800000, p 23178206302429379959100000,
  p 21594970270453876098900000, p 20011966959145314343100000, p 18429850258623241970900000, p 16849269934928849668000000,
  p 15270871393167509064100000, p 13695295443586988012900000, p 12123178070669184125400000, p 10555150205310509167700000,
  p 8991837500165536511960000, p 7433860108226962581930000, p 5881832464712737074120000, p 4336363072329452519880000,
  p 2798054289982050864270000, p 1267502124993370032910000, m 254703971099550386531000, m 1767981303110271757570000,
  m 3271754129067254695390000, m 4765453853318049257100000, m 6248519215815337944640000, m 7720396477528744007270000,
  m 9180539601927771228840000, m 10628410432483317849000000, m 12063478866136671807700000, m 13485223022687524777100000,
  m 14893129410051997307800000, m 16286693085347629661500000, m 17665417811759440147600000, m 19028816211146687420500000,
  m 20376409912349575936900000, m 21707729695157960969600000, m 23022315629906166950500000, m 24319717212658836097400000,
  m 25599493495956162497600000, m 26861213215086943151300000, m 28104454909861451006300000, m 29328807041857495041500000,
  m 30533868107113129597400000, m 31719246744245220559500000, m 32884561837971261477600000, m 34029442618015472155100000,
  m 35153528753381818594500000, m 36256470441979271601700000, m 37337928495584524202200000, m 38397574420130996253300000,
  m 39435090491315577532200000, m 40450169825513006272000000, m 41442516445993858587000000, m 42411845344441576055600000,
  m 43357882537765075892100000, m 44280365120208477203200000, m 45179041310758755178900000, m 46053670495853987754100000,
  m 46904023267398550767200000, m 47729881456091409475100000, m 48531038160077172305400000, m 49307297768929801706800000,
  m 50058475982982589269600000, m 50784399828017398603700000, m 51484907665330342796400000, m 52159849197191465730600000,
  m 52809085467717085948800000, m 53432488859178235707200000, m 54029943083765540057200000, m 54601343170838104179600000]

/-- src/fastest_coeffs.h:541-668 -/
def row4 : List ℤ := [
  m 55146595449681090617100000, m 55665617527799339525600000, m 56158338264780435777900000, m 56624697741753896029800000,
  m 57064647226483286579500000, m 57478149134123884822500000, m 57865176983682958811200000, m 58225715350219885146900000,
  m 58559759812825878944100000, m 58867316898424199012000000, m 59148404021431809363100000, m 59403049419328730895700000,
  m 59631292084178402768100000, m 59833181690145474662700000, m 60008778517060656909600000, m 60158153370081048072500000,
  m 60281387495495969419700000, m 60378572492732644760900000, m 60449810222611942423000000, m 60495212711911661163100000,
  m 60514902054291427879700000, m 60509010307637688119700000, m 60477679387884709927300000, m 60421060959374495169500000,
  m 60339316321812490329100000, m 60232616293883725622200000, m 60101141093589653674500000, m 59945080215371635001800000,
  m 59764632304084339131700000, m 59560005025884932283700000, m 59331414936105976443100000, m 59079087344177376450700000,
  m 58803256175668464078600000, m 58504163831517318195000000, m 58182061044519846337900000, m 57837206733146566406400000,
  m 57469867852761716275900000, m 57080319244315169680000000, m 56668843480582098415300000, m 56235730710021650247100000,
  m 55781278498331983428700000, m 55305791667774675812700000, m 54809582134345391502000000, m 54292968742864926301500000,
  m 53756277100070234964400000, m 53199839405780734169500000, m 52623994282216902951300000, m 52029086601551158275400000,
  m 51415467311767076852300000, m 50783493260907357214100000, m 50133527019788438894300000, m 49465936703261798035300000,
  m 48781095790100592601800000, m 48079382941591961020400000, m 47361181818914022123600000, m 46626880899379365141800000,
  m 45876873291622127792900000, m 45111556549811353267200000, m 44331332486970610740100000, m 43536606987482247277400000,
  m 42727789818858184778300000, m 41905294442856670655800000, m 41069537826025327709200000, m 40220940249749870254400000,
  m 39359925119888505840000000, m 38486918776071778192100000, m 37602350300746767430800000, m 36706651328045229731900000,
  m 35800255852553648783200000, m 34883600038064031811900000, m 33957122026384969903900000, m 33021261746287881855300000,
  m 32076460722668224956300000, m 31123161885997400327700000, m 30161809382142759639000000, m 29192848382630021825100000,
  m 28216724895425246422100000, m 27233885576310720710900000, m 26244777540928548864600000, m 25249848177565953344400000,
  m 24249544960756052453000000, m 23244315265764790151600000, m 22234606184038201853700000, m 21220864339678707777300000,
  m 20203535707022171608000000, m 19183065429384294625600000, m 18159897639045970152400000, m 17134475278544784165900000,
  m 16107239923339795872900000, m 15078631605916412855600000, m 14049088641395795357100000, m 13019047454713741224200000,
  m 11988942409432334218500000, m 10959205638247126665700000, m 9930266875250746971830000, m 8902553290014339482110000,
  m 7876489323545621257240000, m 6852496526182411465400000, m 5830993397479085696420000, m 4812395228142021461060000,
  m 3797113944069305767340000, m 2785557952549686834550000, m 1778131990672276920710000, m 775236976000132386663000,
  p 222730140442126654798000, p 1215376518817062444920000, p 2202313572711087335390000, p 3183157108912462208980000,
  p 4157527464683485537990000, p 5125049642483807919860000, p 6085353442100424788130000, p 7038073590142451992080000,
  p 7982849866859612064650000, p 8919327230245804524760000, p 9847155937387852900340000, p 10765991663024035776600000,
  p 11675495615275624863800000, p 12575334648517622060400000, p 13465181373356073166200000, p 14344714263678778193300000,
  p 15213617760751177790400000, p 16071582374326869036000000, p 16918304780745761772800000, p 17753487917993620443000000,
  p 18576841077698160592500000, p 19388079994038260461800000, p 20186926929543588804500000, p 20973110757765176664900000]

/-- src/fastest_coeffs.h:669-796 -/
def row5 : List ℤ := [
  p 21746367042796303781200000, p 22506438115626612589400000, p 23253073147312591784100000, p 23986028218949094481500000,
  p 24705066388428818108200000, p 25409957753976218641800000, p 26100479514446165568700000, p 26776416026376481660500000,
  p 27437558857787484184500000, p 28083706838720280674100000, p 28714666108509780823000000, p 29330250159786911551300000,
  p 29930279879208716853300000, p 30514583584913906877400000, p 31082997060704865843700000, p 31635363586956059822600000,
  p 32171533968253403224000000, p 32691366557767505274200000, p 33194727278365983302900000, p 33681489640472656033100000,
  p 34151534756680756999000000, p 34604751353129847846200000, p 35041035777656888428000000, p 35460292004734092485800000,
  p 35862431637206017287500000, p 36247373904840472780300000, p 36615045659709702374800000, p 36965381368417905838500000,
  p 37298323101194068296400000, p 37613820517869163417800000, p 37911830850758165834000000, p 38192318884470027873200000,
  p 38455256932666166680400000, p 38700624811794509527700000, p 38928409811822113628700000, p 39138606663994400525200000,
  p 39331217505647629584200000, p 39506251842103330684800000, p 39663726505675539479900000, p 39803665611820297776100000,
  p 39926100512459782032600000, p 40031069746514436058500000, p 40118618987676303577800000, p 40188800989459164125800000,
  p 40241675527560895331300000, p 40277309339574442204100000, p 40295776062086861857300000, p 40297156165202685507200000,
  p 40281536884534001330400000, p 40249012150694686573700000, p 40199682516343260285700000, p 40133655080813117332900000,
  p 40051043412376641228400000, p 39951967468183802179000000, p 39836553511922390136100000, p 39704934029242598680900000,
  p 39557247640994323834000000, p 39393639014322662239600000, p 39214258771668286662800000, p 39019263397722790676100000,
  p 38808815144385971907000000, p 38583081933774063254600000, p 38342237259330967658100000, p 38086460085090270699700000,
  p 37815934743140960927500000, p 37530850829346831809600000, p 37231403097373320931800000, p 36917791351072308525500000,
  p 36590220335279047270100000, p 36248899625074035291100000, p 35894043513563601843800000, p 35525870898233891104200000,
  p 35144605165930951906600000, p 34750474076523950317500000, p 34343709645304795752300000, p 33924548024180392613600000,
  p 33493229381712751047100000, p 33049997782062766338300000, p 32595101062893878929300000, p 32128790712291521725100000,
  p 31651321744754816467400000, p 31162952576317109326700000, p 30663944898851450138200000, p 30154563553618486671000000,
  p 29635076404111698744600000, p 29105754208260357918100000, p 28566870490041400970600000, p 28018701410562812936800000,
  p 27461525638670349763700000, p 26895624221138177134500000, p 26321280452496414320500000, p 25738779744554674683300000,
  p 25148409495676645603000000, p 24550458959861791441400000, p 23945219115690672545500000, p 23332982535189460832100000,
  p 22714043252668340844300000, p 22088696633590899909300000, p 21457239243527187477800000, p 20819968717247193390500000,
  p 20177183628007962917800000, p 19529183357088496231200000, p 18876267963626926910100000, p 18218738054812340376700000,
  p 17556894656484540312400000, p 16891039084194585384600000, p 16221472814777499610300000, p 15548497358489636946400000,
  p 14872414131760739938700000, p 14193524330612408007600000, p 13512128804792529479500000, p 12828527932675427500300000,
  p 12143021496975844528100000, p 11455908561327486985800000, p 10767487347771345640400000, p 10078055115202964181500000,
  p 9387908038824081466410000, p 8697341090645601194290000, p 8006647921086408950520000, p 7316120741713129024820000,
  p 6626050209164985327350000, p 5936725310306359935930000, p 5248433248650203122860000, p 4561459332093786844810000,
  p 3876086862007989235210000, p 3192597023720483619820000, p 2511268778431767056260000, p 1832378756603919882020000]

/-- src/fastest_coeffs.h:797-924 -/
def row6 : List ℤ := [
  p 1156201152858685491860000, p 483007622422852007059000, m 186932820843070034112000, m 853353904797455329115000,
  m 1515992197716752552810000, m 2174587205307925569240000, m 2828881466000378579890000, m 3478620644486728284010000,
  m 4123553623479657079250000, m 4763432593657182176350000, m 5398013141763717201440000, m 6027054336841599323230000,
  m 6650318814563987990240000, m 7267572859643179478130000, m 7878586486288549281530000, m 8483133516690078215760000,
  m 9080991657502680836080000, m 9671942574310046780720000, m 10255771964044967450900000, m 10832269625346665348200000,
  m 11401229526833941627100000, m 11962449873276111145200000, m 12515733169644565128700000, m 13060886283026065107800000,
  m 13597720502384573818000000, m 14126051596153908068700000, m 14645699867650156453200000, m 15156490208288461024600000,
  m 15658252148593707758800000, m 16150819906994389602000000, m 16634032436388026393600000, m 17107733468471674614900000,
  m 17571771555827522814900000, m 18026000111756819432900000, m 18470277447858608060900000, m 18904466809344100397500000,
  m 19328436408086992204200000, m 19742059453403452973200000, m 20145214180561435424200000, m 20537783877018309097700000,
  m 20919656906385222100400000, m 21290726730121539017600000, m 21650891926958421712700000, m 22000056210056677386000000,
  m 22338128441901219239900000, m 22665022646937180855800000, m 22980658021953905001400000, m 23284958944222295534900000,
  m 23577854977394001323400000, m 23859280875170172514500000, m 24129176582749614632400000, m 24387487236066162504800000,
  m 24634163158826202777400000, m 24869159857359202786500000, m 25092438013293284770900000, m 25303963474069796069100000,
  m 25503707241311318609800000, m 25691645457059340829100000, m 25867759387896600842300000, m 26032035406971753416200000,
  m 26184464973945324739500000, m 26325044612873164245900000, m 26453775888049695097500000, m 26570665377828955877600000,
  m 26675724646445915511100000, m 26768970213859280549200000, m 26850423523637943767900000, m 26920110908915217962100000,
  m 26978063556434218189800000, m 27024317468708789619100000, m 27058913424326199587100000, m 27081896936416757770700000,
  m 27093318209317648198600000, m 27093232093457701725700000, m 27081698038491541086200000, m 27058780044711454315600000,
  m 27024546612766337655400000, m 26979070691717142727000000, m 26922429625459060736900000, m 26854705097541987923700000,
  m 26775983074419886648100000, m 26686353747161196958700000, m 26585911471653188992100000, m 26474754707332293080000000,
  m 26352985954474557328500000, m 26220711690079660793900000, m 26078042302382573036600000, m 25925092024028494747100000,
  m 25761978863944982876000000, m 25588824537947130882700000, m 25405754398112476155600000, m 25212897360960467851900000,
  m 25010385834473947835900000, m 24798355643999753922200000, m 24576945957064340320100000, m 24346299207143509008000000,
  m 24106561016422212856400000, m 23857880117584457507800000, m 23600408274669311403700000, m 23334300203033168930000000,
  m 23059713488455948343600000, m 22776808505430290452400000, m 22485748334672577691800000, m 22186698679895418967500000,
  m 21879827783879930713800000, m 21565306343887664236600000, m 21243307426451769198700000, m 20914006381586705551900000,
  m 20577580756455656624300000, m 20234210208536034664200000, m 19884076418322214202500000, m 19527363001604750025700000,
  m 19164255421367081683200000, m 18794940899337156392500000, m 18419608327236224737400000, m 18038448177761075286200000,
  m 17651652415342569679700000, m 17259414406716772072400000, m 16861928831349841384500000, m 16459391591755009876000000,
  m 16051999723740204006900000, m 15639951306626428267900000, m 15223445373473433114800000, m 14802681821353110350200000,
  m 14377861321707992303700000, m 13949185230831676052300000, m 13516855500511548368600000, m 13081074588868171065800000]

/-- src/fastest_coeffs.h:925-1052 -/
def row7 : List ℤ := [
  m 12642045371431622630100000, m 12199971052488704781300000, m 11755055076740282896100000, m 11307501041303572725200000,
  m 10857512608095290854200000, m 10405293416632606373600000, m 9951046997285363515660000, m 9494976685016523129670000,
  m 9037285533643567639330000, m 8578176230655820688750000, m 8117851012622143494490000, m 7656511581220569462310000,
  m 7194359019924887257980000, m 6731593711378513512910000, m 6268415255489420689900000, m 5805022388276972165890000,
  m 5341612901500892955640000, m 4878383563104906478490000, m 4415530038502644624710000, m 3953246812737984221260000,
  m 3491727113546362875480000, m 3031162835347472189750000, m 2571744464196632027480000, m 2113661003721384497310000,
  m 1657099902072137892480000, m 1202246979910748811770000, m 749286359465203312402000, m 298400394673150758020000,
  p 150230397559290287587000, p 596427404960260163468000, p 1040013986333899976760000, p 1480815536816539480100000,
  p 1918659551927116716300000, p 2353375690389584041360000, p 2784795835705763337310000, p 3212754156460316881660000,
  p 3637087165336055395730000, p 4057633776822919952080000, p 4474235363600669555810000, p 4886735811578388384570000,
  p 5294981573574658942350000, p 5698821721620479265060000, p 6098107997871398539000000, p 6492694864111875178990000,
  p 6882439549839984918590000, p 7267202098916772726180000, p 7646845414768749932270000, p 8021235304131599935800000,
  p 8390240519322130635650000, p 8753732799029908390190000, p 9111586907616188446560000, p 9463680672913062433270000,
  p 9809895022512336512640000, p 10150114018536869967000000, p 10484224890887844719400000, p 10812118068959600952800000,
  p 11133687211818378559600000, p 11448829236837571032800000, p 11757444346786733585500000, p 12059436055369779708400000,
  p 12354711211208749266400000, p 12643180020272313732200000, p 12924756066745280228000000, p 13199356332339436115300000,
  p 13466901214045102694300000, p 13727314540323071884200000, p 13980523585738893060900000, p 14226459084039957611600000,
  p 14465055239678880141800000, p 14696249737785360353600000, p 14919983752590081777000000, p 15136201954305936526200000,
  p 15344852514469781851200000, p 15545887109752298815800000, p 15739260924240140726600000, p 15924932650198998090900000,
  p 16102864487323748782200000, p 16273022140483955899600000, p 16435374815974599510500000, p 16589895216279234441100000,
  p 16736559533357370233000000, p 16875347440465468529200000, p 17006242082522840530800000, p 17129230065034369012700000,
  p 17244301441581694894800000, p 17351449699896191042300000, p 17450671746526723315800000, p 17541967890115747058500000,
  p 17625341823299150306700000, p 17700800603243176806200000, p 17768354630835495044900000, p 17828017628545002326600000,
  p 17879806616967728466500000, p 17923741890074909588500000, p 17959846989181554172100000, p 17988148675652435720700000,
  p 18008676902364500332900000, p 18021464783943980103600000, p 18026548565797832074400000, p 18023967591958525713600000,
  p 18013764271762960911300000, p 17995984045385389482600000, p 17970675348245201963200000, p 17937889574311156187800000,
  p 17897681038323318830600000, p 17850106936954681508000000, p 17795227308934857130000000, p 17733104994158529338400000,
  p 17663805591801425010100000, p 17587397417467068999600000, p 17503951459388336631100000, p 17413541333706782088300000,
  p 17316243238855142522200000, p 17212135909065964800600000, p 17101300567032330646200000, p 16983820875744713024800000,
  p 16859782889529561361600000, p 16729275004314730912500000, p 16592387907147287950900000, p 16449214524989874686200000,
  p 16299849972820957405600000, p 16144391501065457478200000, p 15982938442381987298500000, p 15815592157832947944900000,
  p 15642455982464300440200000, p 15463635170321158099300000, p 15279236838926648495200000, p 15089369913250634883100000]

/-- src/fastest_coeffs.h:1053-1180 -/
def row8 : List ℤ := [
  p 14894145069194628452900000, p 14693674676621347810500000, p 14488072741954238775700000, p 14277454850375693659600000,
  p 14061938107650004750600000, p 13841641081598840545800000, p 13616683743256377536700000, p 13387187407730743310400000,
  p 13153274674799925528200000, p 12915069369268524987500000, p 12672696481112548025400000, p 12426282105440059760900000,
  p 12175953382293344326400000, p 11921838436321274823400000, p 11664066316346911184000000, p 11402766934858699077200000,
  p 11138071007451039173800000, p 10870109992240551202700000, p 10599016029285758880300000, p 10324921880034726440200000,
  p 10047960866828336418100000, p 9768266812484075953260000, p 9485973979986800017070000, p 9201217012312051801710000,
  p 8914130872406634056860000, p 8624850783353005603820000, p 8333512168741060571750000, p 8040250593273352841540000,
  p 7745201703627333650330000, p 7448501169599684723630000, p 7150284625556523922240000, p 6850687612213133756420000,
  p 6549845518766931641570000, p 6247893525407361738080000, p 5944966546224682985010000, p 5641199172541721748590000,
  p 5336725616689457808720000, p 5031679656250176435610000, p 4726194578788210469420000, p 4420403127091227131470000,
  p 4114437444942455578130000, p 3808429023444218682740000, p 3502508647914384133650000, p 3196806345374241745820000,
  p 2891451332649150156310000, p 2586571965099649685060000, p 2282295686003258695930000, p 1978748976605062669800000,
  p 1676057306854652475740000, p 1374345086848577715540000, p 1073735618994000728250000, p 774351050912206037222000,
  p 476312329096932108620000, p 179739153344913828647000, m 115250068026150436743000, m 408538262157430215240000,
  m 700009734810518881830000, m 989550212697529359140000, m 1277046884965221109840000, m 1562388443819142302620000,
  m 1845465124275962910670000, m 2126168743029776490170000, m 2404392736421798095620000, m 2680032197500394671590000,
  m 2952983912160830112100000, m 3223146394354267207230000, m 3490419920354525910870000, m 3754706562074266486260000,
  m 4015910219419659664410000, m 4273936651675969145000000, m 4528693507914638601010000, m 4780090356414083870020000,
  m 5028038713087428814020000, m 5272452068908787918560000, m 5513245916333077943640000, m 5750337774701758802860000,
  m 5983647214630320385060000, m 6213095881371290263310000, m 6438607517148467115910000, m 6660107982458851431930000,
  m 6877525276337167342570000, m 7090789555581353612030000, m 7299833152934845706410000, m 7504590594224428562460000,
  m 7704998614451370221590000, m 7900996172834280281690000, m 8092524466803486735130000, m 8279526944945818367480000,
  m 8461949318900211652880000, m 8639739574204791799920000, m 8812847980095845149000000, m 8981227098260904234680000,
  m 9144831790546856242760000, m 9303619225626428082540000, m 9457548884624958004940000, m 9606582565711098420370000,
  m 9750684387655146612150000, m 9889820792358727796770000, m 10023960546360878576300000, m 10153074741324683710800000,
  m 10277136793510849993600000, m 10396122442243029351800000, m 10510009747371604552100000, m 10618779085742531195800000,
  m 10722413146677866116500000, m 10820896926475889049400000, m 10914217721938125962900000, m 11002365122931729093900000,
  m 11085331003995621893000000, m 11163109514999488419700000, m 11235697070864697141900000, m 11303092340356821546300000,
  m 11365296233960211005900000, m 11422311890844095635900000, m 11474144664931802684000000, m 11520802110083645450300000,
  m 11562293964404994628400000, m 11598632133691064508000000, m 11629830674020701086800000, m 11655905773511330766900000,
  m 11676875733247521482700000, m 11692760947396333218200000, m 11703583882522660894500000, m 11709369056117776078400000,
  m 11710143014355158669300000, m 11705934309087279512900000, m 11696773474098009701300000, m 11682693000624837925700000]

/-- src/fastest_coeffs.h:1181-1308 -/
def row9 : List ℤ := [
  m 11663727312165859603700000, m 11639912738586440793500000, m 11611287489540969911100000, m 11577891627224692200300000,
  m 11539767038472037441500000, m 11496957406216447988800000, m 11449508180328497528000000, m 11397466547847954695900000,
  m 11340881402626625321100000, m 11279803314398460095700000, m 11214284497293516840200000, m 11144378777812737751900000,
  m 11070141562280911423600000, m 10991629803794453895700000, m 10908901968681692512500000, m 10822018002493138597000000,
  m 10731039295538976480200000, m 10636028647991598375400000, m 10537050234571042339700000, m 10434169568831013624700000,
  m 10327453467063244310600000, m 10216970011838620927000000, m 10102788515202519234500000, m 9984979481543088120080000,
  m 9863614570150064028710000, m 9738766557482469304880000, m 9610509299163651902860000, m 9478917691721381461050000,
  m 9344067634091755836230000, m 9206035988904693809220000, m 9064900543569584176470000, m 8920739971179146229900000,
  m 8773633791249683261390000, m 8623662330315891647040000, m 8470906682398623988030000, m 8315448669363062830780000,
  m 8157370801186164879780000, m 7996756236150582425330000, m 7833688740983519444020000, m 7668252650957987567870000,
  m 7500532829974367737820000, m 7330614630640180755250000, m 7158583854364814619280000, m 6984526711487861264090000,
  m 6808529781457149654410000, m 6630679973074813868260000, m 6451064484827608025430000, m 6269770765318900297700000,
  m 6086886473819318535420000, m 5902499440952032987160000, m 5716697629530005132780000, m 5529569095561001623730000,
  m 5341201949436965960850000, m 5151684317323297970790000, m 4961104302764435952660000, m 4769549948521031347560000,
  m 4577109198654324105640000, m 4383869860872771813400000, m 4189919569156638767820000, m 3995345746674396764100000,
  m 3800235569006753071080000, m 3604675927691565386760000, m 3408753394105039878640000, m 3212554183691979439730000,
  m 3016164120559925755640000, m 2819668602450056855980000, m 2623152566098092570300000, m 2426700452998751308260000,
  m 2230396175585758981180000, m 2034323083840809936320000, m 1838563932342775339090000, m 1643200847769913557420000,
  m 1448315296866559045290000, m 1253988054885304351950000, m 1060299174516722044150000, m 867327955316482155854000,
  m 675152913641518712638000, m 483851753104545291573000, m 293501335557769932588000, m 104177652615230481180000,
  p 84044202277147895814400, p 271090061213828637746000, p 456886708636217294885000, p 641361907564611910364000,
  p 824444425246958221068000, p 1006064058217502957260000, p 1186151656756005787900000, p 1364639148742574853780000,
  p 1541459562898259052360000, p 1716547051407696367060000, p 1889836911914611738280000, p 2061265608886450866750000,
  p 2230770794340631441030000, p 2398291327928308951100000, p 2563767296369410565730000, p 2727140032235004021840000,
  p 2888352132072166851550000, p 3047347473866852604620000, p 3204071233841768173710000, p 3358469902584621837040000,
  p 3510491300504700682570000, p 3660084592613675226470000, p 3807200302629363142940000, p 3951790326398561988000000,
  p 4093807944639113113870000, p 4233207834997027366190000, p 4369946083420042128030000, p 4503980194844037047990000,
  p 4635269103193821564610000, p 4763773180696146206100000, p 4889454246506181461780000, p 5012275574646747784700000,
  p 5132201901261443377500000, p 5249199431182073084800000, p 5363235843811903214020000, p 5474280298325711127670000,
  p 5582303438188971483890000, p 5687277394997296287030000, p 5789175791639705748180000, p 5887973744786730891100000,
  p 5983647866707899817820000, p 6076176266420603433450000, p 6165538550173850843030000, p 6251715821271665828040000,
  p 6334690679238631945410000, p 6414447218333080118210000, p 6490971025411748987490000, p 6564249177151036326870000]

/-- src/fastest_coeffs.h:1309-1436 -/
def row10 : List ℤ := [
  p 6634270236629583386570000, p 6701024249277954918100000, p 6764502738200446445290000, p 6824698698875252510230000,
  p 6881606593238715277590000, p 6935222343160263661080000, p 6985543323314089350640000, p 7032568353455061552220000,
  p 7076297690104768091380000, p 7116733017656150933620000, p 7153877438903048779920000, p 7187735465002917899240000,
  p 7218313004880324082470000, p 7245617354079385806500000, p 7269657183073181296040000, p 7290442525038754069400000,
  p 7307984763106351554230000, p 7322296617091442888500000, p 7333392129718842647470000, p 7341286652347753759200000,
  p 7345996830207457937990000, p 7347540587152582257370000, p 7345937109948303365970000, p 7341206832094526388290000,
  p 7333371417199674967280000, p 7322453741913550161190000, p 7308477878430148788610000, p 7291469076570120111390000,
  p 7271453745453871145290000, p 7248459434775655213510000, p 7222514815689451070370000, p 7193649661317446861180000,
  p 7161894826892010838810000, p 7127282229542318721380000, p 7089844827736558642570000, p 7049616600391122103740000,
  p 7006632525658016731610000, p 6960928559401773074720000, p 6912541613377356196360000, p 6861509533120709047880000,
  p 6807871075563245825970000, p 6751665886382153015930000, p 6692934477098062655280000, p 6631718201931705719550000,
  p 6568059234431593285120000, p 6502000543884107856830000, p 6433585871518258079980000, p 6362859706516467948880000,
  p 6289867261843730926460000, p 6214654449906435035310000, p 6137267858053324642850000, p 6057754723929907603170000,
  p 5976162910698567913570000, p 5892540882135941480990000, p 5806937677619658164100000, p 5719402887015877581800000,
  p 5629986625480021961150000, p 5538739508181461310140000, p 5445712624965101493480000, p 5350957514960402380820000,
  p 5254526141150229340270000, p 5156470864910621225430000, p 5056844420533395008390000, p 4955699889742566990880000,
  p 4853090676216486459850000, p 4749070480126473502160000, p 4643693272703717199460000, p 4537013270845155661630000,
  p 4429084911769519926350000, p 4319962827734852121860000, p 4209701820827711077340000, p 4098356837835729661600000,
  p 3985982945213113401440000, p 3872635304151010940400000, p 3758369145761657204030000, p 3643239746388250190070000,
  p 3527302403049287909950000, p 3410612409028786467390000, p 3293225029621297487300000, p 3175195478042331428260000,
  p 3056578891513386016940000, p 2937430307531601302030000, p 2817804640332968214860000, p 2697756657558961213010000,
  p 2577340957135147193890000, p 2456611944371344617020000, p 2335623809291471290190000, p 2214430504202792235340000,
  p 2093085721511611478620000, p 1971642871795542019400000, p 1850155062138675310380000, p 1728675074739433438830000,
  p 1607255345797481286070000, p 1485947944688432347320000, p 1364804553433178035270000, p 1243876446469432918080000,
  p 1123214470732777393870000, p 1002869026053670054730000, p 882890045877847201225000, p 763326978315998568199000,
  p 644228767529792380013000, p 525643835459782418976000, p 407620063901896608968000, p 290204776937506045247000,
  p 173444723723805766706000, p 57386061648424465959200, m 57925660144712980983100, m 172445516855139978872000,
  m 286129223744603178401000, m 398933151471683798521000, m 510814341036775051638000, m 621730518333987194034000,
  m 731640108305292775383000, m 840502248693749103720000, m 948276803391555388537000, m 1054924375380168408150000,
  m 1160406319258639601390000, m 1264684753357931670460000, m 1367722571437447959610000, m 1469483453962316900010000,
  m 1569931878958209922270000, m 1669033132441736719250000, m 1766753318424873955140000, m 1863059368490754862460000,
  m 1957919050940558867990000, m 2051300979508700970260000, m 2143174621646441214970000, m 2233510306372054211170000]

/-- src/fastest_coeffs.h:1437-1564 -/
def row11 : List ℤ := [
  m 2322279231687456556300000, m 2409453471560198643820000, m 2495005982471017527690000, m 2578910609526244377550000,
  m 2661142092135716612220000, m 2741676069255800062000000, m 2820489084198600591300000, m 2897558589007384263760000,
  m 2972862948399697044510000, m 3046381443278338430060000, m 3118094273812508331060000, m 3187982562089304149760000,
  m 3256028354338196158240000, m 3322214622729493388450000, m 3386525266749228647160000, m 3448945114152249420690000,
  m 3509459921496019176730000, m 3568056374257548134940000, m 3624722086536014825640000, m 3679445600344018359180000,
  m 3732216384490321097610000, m 3783024833057431046000000, m 3831862263476979932330000, m 3878720914206810945620000,
  m 3923593942013039147230000, m 3966475418861113017010000, m 4007360328419562120470000, m 4046244562180958091730000,
  m 4083124915203687615990000, m 4117999081479602370430000, m 4150865648931475505870000, m 4181724094045414195920000,
  m 4210574776142587613560000, m 4237418931295567313400000, m 4262258665894102550860000, m 4285096949865587617760000,
  m 4305937609555558938380000, m 4324785320273618650920000, m 4341645598510259461410000, m 4356524793830436788340000,
  m 4369430080449403751290000, m 4380369448496872729350000, m 4389351694975486550820000, m 4396386414419418443840000,
  m 4401483989259693564710000, m 4404655579902017406570000, m 4405913114523979726140000, m 4405269278597591028900000,
  m 4402737504143993362000000, m 4398331958726873179570000, m 4392067534191165627260000, m 4383959835153928424890000,
  m 4374025167254108267810000, m 4362280525168144712510000, m 4348743580398347838290000, m 4333432668840993783050000,
  m 4316366778141283479240000, m 4297565534842268282490000, m 4277049191334784603020000, m 4254838612615751032580000,
  m 4230955262861972425440000, m 4205421191826733302850000, m 4178259021066525399910000, m 4149491930005284531790000,
  m 4119143641843338483900000, m 4087238409318643198030000, m 4053801000327643400120000, m 4018856683413084274200000,
  m 3982431213126390485980000, m 3944550815271873241140000, m 3905242172040342650550000, m 3864532407039497109710000,
  m 3822449070228571121190000, m 3779020122764583343440000, m 3734273921767917829570000, m 3688239205014115333630000,
  m 3640945075559944617980000, m 3592420986310464973280000, m 3542696724535051439050000, m 3491802396339242255120000,
  m 3439768411099997959260000, m 3386625465871526997900000, m 3332404529769011827110000, m 3277136828337264603390000,
  m 3220853827911727539770000, m 3163587219978669217570000, m 3105368905541908662590000, m 3046230979502792708680000,
  m 2986205715060798356050000, m 2925325548141097502940000, m 2863623061856693415020000, m 2801130971011062120720000,
  m 2737882106648847815170000, m 2673909400660717198410000, m 2609245870449053601730000, m 2543924603661382091020000,
  m 2477978742997409729310000, m 2411441471096549202250000, m 2344345995511847285250000, m 2276725533776824232650000,
  m 2208613298571089188920000, m 2140042482990997443210000, m 2071046245931093196520000, m 2001657697582436262060000,
  m 1931909885053223301100000, m 1861835778117954236930000, m 1791468255099887664850000, m 1720840088893269437950000,
  m 1649983933129663430870000, m 1578932308494628185270000, m 1507717589199122649320000, m 1436371989611273875320000,
  m 1364927551053048832010000, m 1293416128767050331250000, m 1221869379057788406250000, m 1150318746612463043440000,
  m 1078795452005349830150000, m 1007330479390597388620000, m 935954564387392199190000, m 864698182161781326270000,
  m 793591535709335898878000, m 722664544342259342231000, m 651946832385152269008000, m 581467718082645003419000,
  m 511256202723101406751000, m 441340959980976682391000, m 371750325482115011495000, m 302512286594312090893000]

/-- src/fastest_coeffs.h:1565-1692 -/
def row12 : List ℤ := [
  m 233654472446860898751000, m 165204144181543805632000, m 97188185438295014500700, m 29633093077833308752900,
  p 37435031855788884053400, p 103990492930665522531000, p 170008006877860913661000, p 235462711895771908792000,
  p 300330175705594570618000, p 364586403356421419591000, p 428207844777551787079000, p 491171402077186748311000,
  p 553454436585029511952000, p 615034775638214118408000, p 675890719108685204992000, p 736001045671158494674000,
  p 795345018810736208159000, p 853902392568785988461000, p 911653417026953884206000, p 968578843528107927274000,
  p 1024659929634092392010000, p 1079878443819545178610000, p 1134216669901848576970000, p 1187657411206698631830000,
  p 1240183994469621188770000, p 1291780273473171810480000, p 1342430632420411537600000, p 1392119989044483937750000,
  p 1440833797455423614940000, p 1488558050723990614640000, p 1535279283203899638320000, p 1580984572592742222820000,
  p 1625661541732877990800000, p 1669298360153004690680000, p 1711883745351858773090000, p 1753406963824950945060000,
  p 1793857831836158812230000, p 1833226715934999518500000, p 1871504533221873519190000, p 1908682751362411177810000,
  p 1944753388352886327300000, p 1979709012038751141800000, p 2013542739387957653670000, p 2046248235521404973400000,
  p 2077819712502515601270000, p 2108251927888429508310000, p 2137540183044926277860000, p 2165680321227752419540000,
  p 2192668725432736498430000, p 2218502316017533122770000, p 2243178548097512440410000, p 2266695408718741571590000,
  p 2289051413810855219870000, p 2310245604923009087040000, p 2330277545745568484190000, p 2349147318421132991230000,
  p 2366855519647741677710000, p 2383403256577740474830000, p 2398792142515537850760000, p 2413024292417808008140000,
  p 2426102318199490921050000, p 2438029323849214349830000, p 2448808900357725241990000, p 2458445120463093568060000,
  p 2466942533216197504240000, p 2474306158370577837790000, p 2480541480600295840830000, p 2485654443549728965370000,
  p 2489651443719328050700000, p 2492539324191192333380000, p 2494325368198707561920000, p 2495017292544061873060000,
  p 2494623240868024810490000, p 2493151776775956798840000, p 2490611876824370268800000, p 2487012923372181050220000,
  p 2482364697301015898230000, p 2476677370608772014990000, p 2469961498880825657290000, p 2462228013643185439010000,
  p 2453488214602011704970000, p 2443753761773851361510000, p 2433036667511008672990000, p 2421349288426525876020000,
  p 2408704317223120394690000, p 2395114774430660061630000, p 2380594000056516622990000, p 2365155645153359416370000,
  p 2348813663308834016890000, p 2331582302061613147510000, p 2313476094248285031690000, p 2294509849285613321820000,
  p 2274698644392603424230000, p 2254057815756861649080000, p 2232602949649729710820000, p 2210349873494666262520000,
  p 2187314646893289468020000, p 2163513552613551861600000, p 2138963087544437646770000, p 2113679953621647178430000,
  p 2087681048728606738460000, p 2060983457577128270120000, p 2033604442572235857650000, p 2005561434665233382780000,
  p 1976872024199538384340000, p 1947553951753373466250000, p 1917625098983701502350000, p 1887103479475443724640000,
  p 1856007229600309263800000, p 1824354599389279565570000, p 1792163943422900394130000, p 1759453711743344181410000,
  p 1726242440792422104880000, p 1692548744379362719160000, p 1658391304682478410710000, p 1623788863288299060690000,
  p 1588760212272495630020000, p 1553324185325903952770000, p 1517499648929626025060000, p 1481305493583081342790000,
  p 1444760625088208202610000, p 1407883955893853402190000, p 1370694396503609018000000, p 1333210846950737011460000,
  p 1295452188343444895060000, p 1257437274484068208060000, p 1219184923565324370900000, p 1180713909946997861030000]

/-- src/fastest_coeffs.h:1693-1820 -/
def row13 : List ℤ := [
  p 1142042956016064069940000, p 1103190724133619807220000, p 1064175808671467566430000, p 1025016728141535686180000,
  p 985731917420752321024000, p 946339720074761028661000, p 906858380782653099826000, p 867306037865940180828000,
  p 827700715924154601863000, p 788060318579825755218000, p 748402621335140681366000, p 708745264542995573667000,
  p 669105746494616255432000, p 629501416626196083105000, p 589949468846577432593000, p 550466934988384673337000,
  p 511070678384569518186000, p 471777387572266644969000, p 432603570126133903009000, p 393565546622840108093000,
  p 354679444738640930936000, p 315961193481461178213000, p 277426517559644606348000, p 239090931888283949464000,
  p 200969736235134577339000, p 163078010007227617185000, p 125430607179671989044000, p 88042151367691067831800,
  p 50927031043327097544300, p 14099394897705120699500, m 22426852649968996399200, m 58638055795935576741800,
  m 94520811546809093382800, m 130061973765318488264000, m 165248657065980185041000, m 200068240560348736649000,
  m 234508371450769772170000, m 268556968472767403858000, m 302202225185153135114000, m 335432613107714699702000,
  m 368236884706315019053000, m 400604076224976460123000, m 432523510365022737217000, m 463984798811095579957000,
  m 494977844604242624843000, m 525492844361963827582000, m 555520290345540247376000, m 585050972374773735341000,
  m 614075979590610184985000, m 642586702065795259929000, m 670574832264203037069000, m 698032366349193725621000,
  m 724951605341828033552000, m 751325156129156322866000, m 777145932323820387393000, m 802407154975299293648000,
  m 827102353133903219450000, m 851225364268258727699000, m 874770334537431802288000, m 897731718918501797773000,
  m 920104281190827605862000, m 941883093778050233848000, m 963063537449165905750000, m 983641300879760935652000,
  m 1003612380074813065570000, m 1022973077654491282080000, m 1041720002004232386100000, m 1059850066290699693860000,
  m 1077360487345024224820000, m 1094248784415142571740000, m 1110512777788480887760000, m 1126150587287084439340000,
  m 1141160630636593948180000, m 1155541621711007492170000, m 1169292568654955750270000, m 1182412771885445841240000,
  m 1194901821974869412030000, m 1206759597417265354040000, m 1217986262279822972170000, m 1228582263741660653840000,
  m 1238548329521872801840000, m 1247885465199010616290000, m 1256594951424063648720000, m 1264678341029199437270000,
  m 1272137456034284127420000, m 1278974384553622448830000, m 1285191477604991777680000, m 1290791345823362685010000,
  m 1295776856081541162160000, m 1300151128020150944830000, m 1303917530489234494900000, m 1307079677903887375210000,
  m 1309641426516363954190000, m 1311606870607022771670000, m 1312980338596590051960000, m 1313766389082183854920000,
  m 1313969806799617249730000, m 1313595598514412810670000, m 1312648988844085200240000, m 1311135416014195262740000,
  m 1309060527550702252710000, m 1306430175911160555810000, m 1303250414057314848430000, m 1299527490971636367250000,
  m 1295267847120395868570000, m 1290478109865786458120000, m 1285165088829734155240000, m 1279335771211919563560000,
  m 1272997317064601240780000, m 1266157054526840467640000, m 1258822475020646234480000, m 1251001228411671370440000,
  m 1242701118136986656800000, m 1233930096302513759400000, m 1224696258752656615260000, m 1215007840114705386230000,
  m 1204873208820530063390000, m 1194300862108084275440000, m 1183299421005292980170000, m 1171877625298750266740000,
  m 1160044328489810922310000, m 1147808492740447564030000, m 1135179183811474987530000, m 1122165565995444794570000,
  m 1108776897046756656700000, m 1095022523111328308780000, m 1080911873658268063800000, m 1066454456415854429310000]

/-- src/fastest_coeffs.h:1821-1948 -/
def row14 : List ℤ := [
  m 1051659852314260762410000, m 1036537710437274465920000, m 1021097742985385128590000, m 1005349720252431047070000,
  m 989303465618205854493000, m 972968850559070386023000, m 956355789678956110487000, m 939474235762757228438000,
  m 922334174854466432199000, m 904945621361946477522000, m 887318613190598128385000, m 869463206907894578697000,
  m 851389472940857513876000, m 833107490808391681729000, m 814627344390523211622000, m 795959117236444131487000,
  m 777112887913182157074000, m 758098725396869001399000, m 738926684508335205812000, m 719606801394884719458000,
  m 700149089059903611230000, m 680563532942129469604000, m 660860086546161931871000, m 641048667125920334890000,
  m 621139151422514545521000, m 601141371458319205383000, m 581065110388481308873000, m 560920098411564179222000,
  m 540716008740645473485000, m 520462453636329636791000, m 500168980502928035153000, m 479845068049252442000000,
  m 459500122515179752151000, m 439143473965308969373000, m 418784372650737749064000, m 398431985440370181519000,
  m 378095392322528038760000, m 357783582978218623466000, m 337505453426840712917000, m 317269802745462131330000,
  m 297085329862539673351000, m 276960630426857884294000, m 256904193752789059696000, m 236924399842341755311000,
  m 217029516485020210204000, m 197227696436049984184000, m 177526974673721080374000, m 157935265736364822877000,
  m 138460361139671443579000, m 119109926874780676581000, m 99891500987709660412000, m 80812491240465878731400,
  m 61880172854376141121900, m 43101686335890172611900, m 24484035385260729075100, m 6034084888228075255490,
  p 12241441008794292348200, p 30335960740163016627900, p 48243037078664369893000, p 65956378809430333165700,
  p 83469842319961579622800, p 100777433106333784039000, p 117873307195481496850000, p 134751772483674884346000,
  p 151407289991337552218000, p 167834475034225882872000, p 184028098311239825778000, p 199983086909011169297000,
  p 215694525223608961004000, p 231157655799539194473000, p 246367880086458945071000, p 261320759113890506518000,
  p 276012014084471178285000, p 290437526885940853344000, p 304593340522622661477000, p 318475659466672001308000,
  p 332080849929764377465000, p 345405440055728798956000, p 358446120034815369788000, p 371199742140139986053000,
  p 383663320687053425832000, p 395834031916090828447000, p 407709213800306149479000, p 419286365777668133727000,
  p 430563148409382728376000, p 441537382964913725693000, p 452207050934656925797000, p 462570293470961546242000,
  p 472625410758635230730000, p 482370861315684551149000, p 491805261225328150740000, p 500927383300294468485000,
  p 509736156180340470138000, p 518230663364083014855000, p 526410142176160977465000, p 534273982670858136115000,
  p 541821726473215733132000, p 549053065558819199977000, p 555967840973343140065000, p 562566041493084596781000,
  p 568847802227587348751000, p 574813403165606124842000, p 580463267665585255090000, p 585797960891953992807000,
  p 590818188198352634011000, p 595524793459205619046000, p 599918757350793364382000, p 604001195583171897330000,
  p 607773357084216074402000, p 611236622137123529822000, p 614392500472671181100000, p 617242629317575641247000,
  p 619788771400296852575000, p 622032812915646266330000, p 623976761449542352556000, p 625622743865282679096000,
  p 626973004152734866845000, p 628029901241785953013000, p 628795906781460817864000, p 629273602886090081127000,
  p 629465679849935955126000, p 629374933831637162034000, p 629004264509917614644000, p 628356672711923979618000,
  p 627435258015602670238000, p 626243216327530610385000, p 624783837437580067548000, p 623060502551831571320000]

/-- src/fastest_coeffs.h:1949-2076 -/
def row15 : List ℤ := [
  p 621076681805128117189000, p 618835931754663313292000, p 616341892855999597296000, p 613598286922899423257000,
  p 610608914572360016171000, p 607377652656219848941000, p 603908451680720608987000, p 600205333215381750360000,
  p 596272387292547546150000, p 592113769798962869678000, p 587733699860716260477000, p 583136457222883410056000,
  p 578326379625196070923000, p 573307860175058681823000, p 568085344719199331932000, p 562663329215264671791000,
  p 557046357104629347515000, p 551239016687691835844000, p 545245938502918582949000, p 539071792710859535452000,
  p 532721286484389919269000, p 526199161406370888652000, p 519510190875949965511000, p 512659177524647379116000,
  p 505650950643461694588000, p 498490363622070692395000, p 491182291401325650700000, p 483731627940122419548000,
  p 476143283697776802978000, p 468422183132952726740000, p 460573262220249240485000, p 452601465985464203410000,
  p 444511746060588389465000, p 436309058259498746754000, p 427998360175392566791000, p 419584608800889610671000,
  p 411072758171783069880000, p 402467757035333936928000, p 393774546544049656484000, p 384998057975832470683000,
  p 376143210481313700240000, p 367214908859312392543000, p 358218041361136620669000, p 349157477524604336044000,
  p 340038066038525694287000, p 330864632638427479810000, p 321641978034209344382000, p 312374875870502510550000,
  p 303068070720368721877000, p 293726276113044930307000, p 284354172596324122988000, p 274956405834251703824000,
  p 265537584740686090270000, p 256102279649332684359000, p 246655020520732712157000, p 237200295186851598233000,
  p 227742547633623577692000, p 218286176322046336163000, p 208835532548216017655000, p 199394918842769620351000,
  p 189968587410093434423000, p 180560738607737464008000, p 171175519466368710516000, p 161817022250571095152000,
  p 152489283060860649410000, p 143196280477158617963000, p 133941934244020521144000, p 124730103997818122337000,
  p 115564588036148766046000, p 106449122129624024050000, p 97387378376244474733800, p 88382964098443760362800,
  p 79439420783050136839700, p 70560223064116442230600, p 61748777748843984569700, p 53008422886527781930700,
  p 44342426880701892272100, p 35753987644350486852900, p 27246231798296384089400, p 18822213912673189213000,
  p 10484915791467377089900, p 2237245800013982459520, m 5917961764588419098600, m 13977947260302261536300,
  m 21940026244310825427400, m 29801589974731277943600, m 37560105869938818887400, m 45213117925834681205800,
  m 52758247091157951119400, m 60193191601116982311100, m 67515727269615508619200, m 74723707740268675999400,
  m 81815064696597825924200, m 88787808031581317604100, m 95640025977017411240200, m 102369885192932295447000,
  m 108975630817447491838000, m 115455586477445233109000, m 121808154260462635915000, m 128031814648165977134000,
  m 134125126411867404445000, m 140086726470483718130000, m 145915329711446663599000, m 151609728774925367391000,
  m 157168793801964925671000, m 162591472146915872604000, m 167876788054762332352000, m 173023842303760092562000,
  m 178031811814023872061000, m 182899949222519527144000, m 187627582425063416539000, m 192214114085866635134000,
  m 196659021115234305434000, m 200961854115964548605000, m 205122236799067813760000, m 209139865369424642018000,
  m 213014507881963919287000, m 216746003569016719827000, m 220334262139455170628000, m 223779263050288623272000,
  m 227081054751326671731000, m 230239753903598189230000, m 233255544572162539776000, m 236128677394024743099000,
  m 238859468721759089912000, m 241448299743606627134000, m 243895615580664562507000, m 246201924361897988517000]

/-- src/fastest_coeffs.h:2077-2204 -/
def row16 : List ℤ := [
  m 248367796277648787261000, m 250393862612362249915000, m 252280814757210175570000, m 254029403203337271477000,
  m 255640436516424906718000, m 257114780293308988878000, m 258453356101321892260000, m 259657140401130335366000,
  m 260727163453730896234000, m 261664508212373382850000, m 262470309200077975623000, m 263145751373508769710000,
  m 263692068973905575490000, m 264110544365773612825000, m 264402506864084673854000, m 264569331550674807438000,
  m 264612438080565591254000, m 264533289478916812908000, m 264333390929326621406000, m 264014288554176887285000,
  m 263577568187730454374000, m 263024854142685936189000, m 262357807970878796362000, m 261578127218826830911000,
  m 260687544178804346540000, m 259687824636131118095000, m 258580766613355161020000, m 257368199111998000473000,
  m 256051980852535184582000, m 254633999013272917245000, m 253116167968770410229000, m 251500428028467203686000,
  m 249788744176148520739000, m 247983104810888498049000, m 246085520490098991209000, m 244098022675305284133000,
  m 242022662481256641692000, m 239861509428983846149000, m 237616650203396260988000, m 235290187416002671578000,
  m 232884238373345356290000, m 230400933851706944807000, m 227842416878660760553000, m 225210841522004905167000,
  m 222508371686640725982000, m 219737179919906623887000, m 216899446225907947382000, m 213997356889345798732000,
  m 211033103309352538255000, m 208008880843819519632000, m 204926887664708660573000, m 201789323624807442155000,
  m 198598389136399967663000, m 195356284062287273917000, m 192065206619610498147000, m 188727352296894345393000,
  m 185344912784731391314000, m 181920074920499755819000, m 178455019647530454055000, m 174951920989073971512000,
  m 171412945037461607323000, m 167840248958807175192000, m 164235980013589989322000, m 160602274593463965847000,
  m 156941257274607583660000, m 153255039887926981963000, m 149545720606400077326000, m 145815383049865629223000,
  m 142066095407511174204000, m 138299909578337953649000, m 134518860329830815736000, m 130724964475093245915000,
  m 126920220068654472992000, m 123106605621173758290000, m 119286079333219134950000, m 115460578348350841244000,
  m 111632018025632952099000, m 107802291231779830637000, m 103973267653065606659000, m 100146793127148565233000,
  m 96324688994923080443500, m 92508751472534687335800, m 88700751043645245067100, m 84902431872054551502600,
  m 81115511234739354966100, m 77341678975401960990800, m 73582596978567492451200, m 69839898664288702361200,
  m 66115188503475076707400, m 62410041553889974877200, m 58726003016820042845000, m 55064587814397498674100,
  m 51427280187612878269500, m 47815533314938071405800, m 44230768951576636123300, m 40674377089271514663500,
  m 37147715636632474916200, m 33652110119902727935600, m 30188853404113052513900, m 26759205434522494366500,
  m 23364392998266594815700, m 20005609506090695111400, m 16684014794079720132400, m 13400734945243966136300,
  m 10156862130843785169300, m 6953454471288137014270, m 3791535916502508103660, m 672096145553293655593,
  p 2403909514592795976160, p 5435560151374560584260, p 8421969310176401234990, p 11362285019311092767600,
  p 14255689796623825774600, p 17101400637934124822900, p 19898668987539083112600, p 22646780690979317256300,
  p 25345055930313168231400, p 27992849142122074024500, p 30589548918505330267600, p 33134577891292543044300,
  p 35627392599745163223700, p 38067483341994751036400, p 40454374010506859952100, p 42787621911804446311300,
  p 45066817570775326751300, p 47291584519808950286000, p 49461579073071320028300, p 51576490086200580537100]

/-- src/fastest_coeffs.h:2205-2332 -/
def row17 : List ℤ := [
  p 53636038701733433924000, p 55639978080548187190000, p 57588093119643877409000, p 59480200156556198559000,
  p 61316146660736649395500, p 63095810912196540962100, p 64819101667750489187600, p 66485957815171534373900,
  p 68096348015604324052100, p 69650270334534758747000, p 71147751861681070208900, p 72588848320126388592000,
  p 73973643665016324509600, p 75302249672190370885300, p 76574805517059564563500, p 77791477344087882686600,
  p 78952457827212080602100, p 80057965721554112388400, p 81108245406758414856700, p 82103566422309781766200,
  p 83044222995171752734600, p 83930533560099061622700, p 84762840272962415469200, p 85541508517437983235600,
  p 86266926405402968966600, p 86939504271394202274300, p 87559674161453678650100, p 88127889316731128463600,
  p 88644623652166151242200, p 89110371230602660407500, p 89525645732671754696200, p 89890979922787589266100,
  p 90206925111586264078200, p 90474050615149036397600, p 90692943211340186710300, p 90864206593594027978200,
  p 90988460822477145589800, p 91066341775351006683300, p 91098500594465606954400, p 91085603133795727546000,
  p 91028329404945658985000, p 90927373022431010312500, p 90783440648656711213100, p 90597251438888468273700,
  p 90369536486534614771700, p 90101038269029882403800, p 89792510094623221444900, p 89444715550360438804900,
  p 89058427951553846471000, p 88634429793020311455300, p 88173512202371754666000, p 87676474395632225666800,
  p 87144123135456100421600, p 86577272192211649198100, p 85976741808195563505000, p 85343358165234828771800,
  p 84677952855929497001100, p 83981362358784235116700, p 83254427517472350548200, p 82497993024469612358000,
  p 81712906909291134005900, p 80900020031558051531900, p 80060185579117776485100, p 79194258571431872212100,
  p 78303095368446970926000, p 77387553185149037904100, p 76448489612006696627800, p 75486762141494366681000,
  p 74503227700885668073600, p 73498742191499725844500, p 72474160034578129891400, p 71430333723963975942100,
  p 70368113385749507570100, p 69288346345048525023800, p 68191876700055689751300, p 67079544903529808434200,
  p 65952187351854565347700, p 64810635981801901291300, p 63655717875140354180100, p 62488254871200007013600,
  p 61309063187522941308800, p 60118953048705048010500, p 58918728323539852262700, p 57709186170560026107800,
  p 56491116692076837155600, p 55265302596801213301800, p 54032518871133193550300, p 52793532459191864385800,
  p 51549101951661215059700, p 50299977283516225309800, p 49046899440682311418900, p 47790600175694368588300,
  p 46531801732387224185500, p 45271216579674544450800, p 44009547154438522452700, p 42747485613576215819500,
  p 41485713595211438258500, p 40224901989105001976800, p 38965710716269504510100, p 37708788517801961764600,
  p 36454772752932132419600, p 35204289206290734974400, p 33957951904385468586200, p 32716362941275954016200,
  p 31480112313423023952400, p 30249777763702374497800, p 29025924634538721844300, p 27809105730143296469500,
  p 26599861187802534897200, p 25398718358191985436400, p 24206191694651144877200, p 23022782651381306170600,
  p 21848979590504786975800, p 20685257697922204727600, p 19532078907909786630600, p 18389891836381623416800,
  p 17259131722747816738500, p 16140220380285660048500, p 15033566154949253078400, p 13939563892526607379000,
  p 12858594914059319396600, p 11791026999426414657800, p 10737214379002724953500, p 9697497733286292097530,
  p 8672204200395724205660, p 7661647391323146575120, p 6666127412846224373470, p 5685930897969769515480]

/-- src/fastest_coeffs.h:2333-2460 -/
def row18 : List ℤ := [
  p 4721331043794107010500, p 3772587656683747231690, p 2839947204618579940690, p 1923642876597956333600,
  p 1023894648976771836910, p 140909358598783243636, m 725119217400925882488, m 1574010275265737517960,
  m 2405595891884011776820, m 3219720925804359693790, m 4016242912132399294470, m 4795031951452234497270,
  m 5555970592919598984740, m 6298953711669153985270, m 7023888380689952789690, m 7730693737306623377140,
  m 8419300844430432605710, m 9089652546720496388740, m 9741703321814201867980, m 10375419126777014596000,
  m 10990777239930608837200, m 11587766098209585478600, m 12166385130207181875300, m 12726644585063801587900,
  m 13268565357359683132800, m 13792178808164656483100, m 14297526582407026418500, m 14784660422716915012000,
  m 15253641979907777784500, m 15704542620245486419000, m 16137443229674579444000, m 16552434015150990770500,
  m 16949614303244377687700, m 17329092336165128192200, m 17690985065376594275200, m 18035417942945513458500,
  m 18362524710788884994000, m 18672447187974299974100, m 18965335056225002052300, m 19241345643786633977700,
  m 19500643707806438419400, m 19743401215379601627200, m 19969797123410259185600, m 20180017157439467161400,
  m 20374253589586587253600, m 20552705015754474951900, m 20715576132238386992600, m 20863077511889823823000,
  m 20995425379972245197000, m 21112841389852976374300, m 21215552398669049421900, m 21303790243106262327900,
  m 21377791515425442986500, m 21437797339871240038000, m 21484053149594608698900, m 21516808464220413824500,
  m 21536316668186290351700, m 21542834789980388657900, m 21536623282400502740800, m 21517945803957726257400,
  m 21487069001542282521700, m 21444262294469408343200, m 21389797660021196305600, m 21323949420593842307700,
  m 21246994032563604269200, m 21159209876976703987400, m 21060877052168902183800, m 20952277168417356314000,
  m 20833693144724694086800, m 20705409007832376055500, m 20567709693558160763800, m 20420880850549890615000,
  m 20265208646545085802600, m 20100979577222587808500, m 19928480277730789744800, m 19747997336973355350800,
  m 19559817114731305740600, m 19364225561696592171300, m 19161508042490897521100, m 18951949161739218045100,
  m 18735832593265906731200, m 18513440912477529041000, m 18285055431994574507800, m 18050956040590425416400,
  m 17811421045494276176500, m 17566727018110702389200, m 17317148643206708362300, m 17062958571613483628500,
  m 16804427276488171180000, m 16541822913176952130900, m 16275411182719152326100, m 16005455199028454499600,
  m 15732215359784975327000, m 15455949221068456613000, m 15176911375761739040600, m 14895353335748381094300,
  m 14611523417928096033500, m 14325666634069266752600, m 14038024584516151728500, m 13748835355764459946700,
  m 13458333421918203585000, m 13166749550036127686100, m 12874310709375013159300, m 12581239984533222609200,
  m 12287756492496718381400, m 11994075303585958710300, m 11700407366300736151900, m 11406959436056016019200,
  m 11113934007802205234400, m 10821529252516897074000, m 10529938957556848292300, m 10239352470853966249300,
  m 9949954648937423481200, m 9661925808762716113430, m 9375441683324919892100, m 9090673381032464181570,
  m 8807787348814227393720, m 8526945338932487959020, m 8248304379470590519770, m 7972016748463331523200,
  m 7698229951634914041100, m 7427086703709253033020, m 7158724913253609092300, m 6893277671016333049330,
  m 6630873241715737051240, m 6371635059238993232230, m 6115681725203214471570, m 5863127010834294596310]

/-- src/fastest_coeffs.h:2461-2492 -/
def row19 : List ℤ := [
  m 5614079862114044692770, m 5368644408146550131820, m 5126919972691718462170, m 4889001088814442335640,
  m 4654977516594574432440, m 4424934263843051962550, m 4198951609766780872650, m 3977105131525544644930,
  m 3759465733621583124450, m 3546099680061294613000, m 3337068629229102308120, m 3132429671410531481280,
  m 2932235368902202780370, m 2736533798643659033130, m 2545368597308418381720, m 2358779008786163310910,
  m 2176799933991919341310, m 1999461982934106268410, m 1826791528974537874590, m 1658810765211463771690,
  m 1495537762917919114300, m 1336986531965470201660, m 1183167083164322994850, m 1034085492449114731990,
  m 889743966841013678409, m 750140912114827378233, m 615271002100918799020, m 485125249549975873449,
  m 359691078491283933177, m 238952398011216803052, m 122889677382464548894, p 0]

/-- All rows of the header. -/
def rows : List (List ℤ) := [
  row0, row1, row2, row3, row4, row5, row6, row7, row8, row9, row10, row11, row12, row13, row14, row15, row16, row17,
  row18, row19]

/-- `fastest_coeffs`, src/fastest_coeffs.h:23-2492 -/
def table : CoeffTable := ofRows 128 2464 rows

end Verif.Fastest
