import Verif.Model.CoeffsMid
import Verif.Proof.AliasFastest
import Verif.Proof.AliasTable

/-! The second differences of the table of mid_qual_coeffs.h on complex exponentials, evaluated by the kernel: angles 0, ..., 798 times 1/254 per frame, all phases
of the table. The lists are the factors that the sums are compared with. -/

set_option maxRecDepth 1000000
set_option Elab.async false

namespace Verif.MidQual
open Verif.Sine Verif.Coeffs Verif.Alias

theorem curved : Curved rows.flatten 22435 40000000000000000000000 135900000000000000000000000000000 10700000000000000000 := by
  constructor
  all_goals decide +kernel

theorem curves1 : checkAll ⟨40000000000000000000000, 2305843009213693952, 148, 122⟩ (packed 40000000000000000000000 (Nat.pow 2 148) 491 46 (curve 22435 rows.flatten)) 9 491 46 (Nat.mul 1130000000000000000 1152921504606846976)
    3458764513783478034 2305852253737200491 3458763031305101417 2307691913122533281
    [0, 58614865319847096, 251772740180302432, 573692629882776064, 1024360027504456832, 1603761791159643392, 2310130860903343616, 3147351782453109760,
      4113461552529867264, 5208186838299011072, 6431496709003832320, 7783331738474227712, 9262212726107047936, 10869687990384449536, 12606304539308976128,
      14471357232914954240, 16464818768226140160, 18586697543101546496, 20836967560674590720, 23215650338658119680, 25722732128188026880, 28358236258633928704,
      31122180672593485824, 34015312524700393472, 37037217228214353920, 40185980870052659200, 43463239472574644224, 46869068007460937728, 50403534767291326464,
      54066696972717981696, 57860806429719011328, 61781988833432666112, 65831904193690763264, 70010571512198914048, 74318004112548986880, 78754209709784776704,
      83319190028569296896, 88012940776852422656, 92835460774749667328, 97786722991576727552, 102866699984453648384, 108073569338717700096, 113411170199645880320,
      118877837445526241280, 124473147188581810176, 130197040153061818368, 136049451935149178880, 142029223227456847872, 148137242702916255744, 154374416794185695232,
      160740029254738247680, 167234045839044149248, 173856476499621249024, 180607296179544489984, 187486527931385970688, 194494159119077343232, 201630206288234283008,
      208894691857746132992, 216288497945882329088, 223811122933677457408, 231460464241797038080, 239238300109234733056, 247144707496110161920, 255179728334968913920,
      263343424218440859648, 271637828998347587584, 280059583250672058368, 288610077337407684608, 297289328873051586560, 306097350775494475776, 315034149176718196736,
      324099724814651621376, 333294081399508369408, 342617196416904069120, 352069067439120515072, 361649608638881923072, 371357026636446892032, 381195002109243752448,
      391162229962718838784, 401258113070478000128, 411482576577909227520, 421835568934492569600, 432316207630598406144, 442924832420974493696, 453662575002704740352,
      464528749134929002496, 475523321270303064064, 486646302555816853504, 497897669555579977728, 509277435974315868160, 520785602544334340096, 532422187311852027904,
      544187207971753885696, 556081637079974346752, 568105019813421711360, 580254941706623385600, 592533351244869664768, 604940333999801237504, 617475921231998353408,
      630140158774934634496, 642934799867138015232, 655857129835220041728, 668908200110799454208, 682088035117609910272, 695396646416586899456, 708834039147161190400,
      722400212608728432640, 736095178940761899008, 749918911447494033408, 763871394520558075904, 777952489540854611968, 792160538651747418112, 806498815581140680704,
      820966606195314786304, 835563050598147555328, 850288087479185047552, 865141672851459670016, 880123195356146171904, 895232446749462102016, 910470768521912647680,
      925837495504187424768, 941332632269477773312, 956956151098247610368, 972708060389713379328, 988588355789930758144, 1004597050029046235136, 1020734147987942932480,
      1036999682031417425920, 1053394689120781729792, 1069918878939028127744, 1086569376974581661696, 1103348377118136860672, 1120255917771451924480,
      1137292064876211077120, 1154456791038629511168, 1171751616557681213440, 1189174577244460810240, 1206726220941289848832, 1224406638166926426112,
      1242215839510572564480, 1260153839744613351424, 1278220625333052243968, 1296416206182952468480, 1314740561418246684672, 1333193693645243154432,
      1351775350498418753536, 1370484112203765776384, 1389322586470499221504, 1408290934994489573376, 1427387941794713960448, 1446613567102710710272,
      1465967808506633912320, 1485450170471366000640, 1505060063795781566464, 1524798947326643666944, 1544666244063052169216, 1564661921794111569920,
      1584785983230944215040, 1605038418385133895680, 1625419234981228576768, 1645928431343346384896, 1666566026920456093696, 1687332050717734076416,
      1708227566071145824256, 1729252458711132930048, 1750403740686677704704, 1771683313888381108224, 1793091423309693452288, 1814628061852301000704,
      1836293267532726403072, 1858088317414380404736, 1880011878683002011648, 1902064094449071816704, 1924245104663433838592, 1946554898876923641856,
      1968993500073477537792, 1991560913422804320256, 2014257124178480332800, 2037082134708577894400, 2060035936491680825344, 2083118176717170016256,
      2106327557708692586496, 2129666265202203820032, 2153135172798954078208, 2176732742412735348736, 2200458994210115420160, 2224313888525760593920,
      2248297092879986982912, 2272407641186888581120, 2296647093787697610752, 2321014937606390546432, 2345511160637708304384, 2370135747211235950592,
      2394888699417980829696, 2419770018316902465536, 2444779697584598941696, 2469917748756962344960, 2495184228941228408832, 2520580326463196102656,
      2546105835469815676928]
    3458764513820540928 2305843009213693952 = true := by
  decide +kernel

theorem curves2 : checkAll ⟨40000000000000000000000, 2305843009213693952, 148, 122⟩ (packed 40000000000000000000000 (Nat.pow 2 148) 491 46 (curve 22435 rows.flatten)) 9 491 46 (Nat.mul 1130000000000000000 1152921504606846976)
    3458764513783478034 2305852253737200491 3458758583762595789 2309540812276445964
    [2571757970385975377920, 2597538120229595906048, 2623446742503858372608, 2649483858154260791296, 2675649539450269073408, 2701944828779501715456,
      2728368975436525338624, 2754921763854499708928, 2781603359267833249792, 2808413770974528274432, 2835352989185916534784, 2862421036411973533696,
      2889617902825724968960, 2916943583105274347520, 2944398093620286586880, 2971980891765780512768, 2999690792608461225984, 3027529791330159951872,
      3055499250434891579392, 3083597427323614789632, 3111824339425112358912, 3140179889837726236672, 3168663910999563173888, 3197275132165703598080,
      3226015140753728077824, 3254883535105125515264, 3283880285160993193984, 3313005386923289608192, 3342258825114771521536, 3371640625255320387584,
      3401150758587908227072, 3430789237130547167232, 3460556172512809451520, 3490452947755449450496, 3520479085953752236032, 3550632004255880839168,
      3580912705264000958464, 3611321794367088754688, 3641859378256349233152, 3672525535127163371520, 3703321078987283759104, 3734245787914357702656,
      3765299160998695927808, 3796481356787958677504, 3827792382272959676416, 3859232235602880495616, 3890800934818963521536, 3922498474582808199168,
      3954324867162849148928, 3986280102937749880832, 4018363406195889799168, 4050573750908727853056, 4082913112527197437952, 4115383130004912078848,
      4147981963564247678976, 4180709534102175875072, 4213565744659259457536, 4246550500004906663936, 4279662468908181880832, 4312903035369448538112,
      4346271951341818478592, 4379769216728826380288, 4413394810299276066816, 4447148720775952334848, 4481030959614480875520, 4515041525232792240128,
      4549180383568534700032, 4583447778205617881088, 4617845361552184049664, 4652372151840661831680, 4687025752305030397952, 4721806929654028173312,
      4756716473067884249088, 4791754523172460822528, 4826921164674318729216, 4862216957602073411584, 4897642216551910211584, 4933196198095679913984,
      4968879001906679119872, 5004690660822123282432, 5040631169391233335296, 5076700550656001310720, 5112898800149283733504, 5149225932405501591552,
      5185681861146889420800, 5222265555494671220736, 5258976323278305492992, 5295816138463292424192, 5332786781536880951296, 5369886296619300683776,
      5407114532605997875200, 5444471382142002135040, 5481956760347815706624, 5519569588251825012736, 5557310681889723383808, 5595180115243385749504,
      5633177860047416328192, 5671303918519469473792, 5709558274213712756736, 5747940926182208307200, 5786451854773313339392, 5825091123134832050176,
      5863859023405549355008, 5902757475860001849344, 5941784960101278285824, 5980939072090940637184, 6020220663549929717760, 6059630654268945465344,
      6099169168638270767104, 6138836307117509443584, 6178632376251276328960, 6218558190072965890048, 6258612758314542432256, 6298796192273602183168,
      6339108517878245097472, 6379549715674426245120, 6420119810945077739520, 6460818809558191308800, 6501646685855471894528, 6542603291620022419456,
      6583687247354194296832, 6624898403190159966208, 6666238812733176807424, 6707710166874308214784, 6749310385713800282112, 6791039277410495234048,
      6832896748104489893888, 6874882709697648918528, 6916996411856354541568, 6959238011682938683392, 7001607921394844172288, 7044106120022972170240,
      7086732601236957167616, 7129487361202167218176, 7172370378504480489472, 7215381653707674353664, 7258521341359750643712, 7301789862192509616128,
      7345189228498332418048, 7388717440205219430400, 7432371759151787802624, 7476153737700292165632, 7520064166175475499008, 7564103180778771316736,
      7608270861189535236096, 7652567284912475865088, 7696993571411354189824, 7741548773653082013696, 7786232884205689241600, 7831045874001513545728,
      7875987808864303054848, 7921058643733559377920, 7966258432753163829248, 8011587014062051950592, 8057044350225626431488, 8102628382658256699392,
      8148339851437180715008, 8194181151392975028224, 8240153300863127912448, 8286254190451720454144, 8332483706084042735616, 8378841744580370497536,
      8425328228379257733120, 8471942796694940286976, 8518684878053814829056, 8565555233769223356416, 8612553857793883373568, 8659680720173044596736,
      8706935828493847494656, 8754319150388677181440, 8801830800407588241408, 8849470872962834890752, 8897240194278357991424, 8945140537695193268224,
      8993169544054946398208, 9041323534280591147008, 9089605922794896359424, 9138016845804795330560, 9186556409078147448832, 9235224663355168915456,
      9284021723420292022272, 9332948255990212460544, 9382004126877574234112, 9431188931367217922048, 9480502673402474004480, 9529945362825899671552,
      9579517005476069900288, 9629217564523669487616, 9679046881246273601536, 9729004921477788598272, 9779088788480610795520, 9829300470221809647616,
      9879643330548823228416, 9930116191921270423552, 9980717684441418301440, 10031447740343881039872, 10082306274443359420416, 10133293229644957351936,
      10184408528652972589056, 10235651154214578552832]
    3458763031305101417 2307691913122533281 = true := by
  decide +kernel

theorem curves3 : checkAll ⟨40000000000000000000000, 2305843009213693952, 148, 122⟩ (packed 40000000000000000000000 (Nat.pow 2 148) 491 46 (curve 22435 rows.flatten)) 9 491 46 (Nat.mul 1130000000000000000 1152921504606846976)
    3458764513783478034 2305852253737200491 3458751171204462028 2311389701920517594
    [10287021882610720702464, 10338520838016029687808, 10390148014741045379072, 10441903411598372896768, 10493787041353684746240, 10545799057510378766336,
      10597939521728316178432, 10650209954721913896960, 10702611361866950115328, 10755139874371533799424, 10807794278455668899840, 10860577218813088497664,
      10913488740733765550080, 10966528926330445103104, 11019697846667813322752, 11072995567396131438592, 11126422577690703822848, 11179979198338948923392,
      11233664751003974500352, 11287479240581076484096, 11341422669821594566656, 11395495073849639174144, 11449696311514532675584, 11504026296047359754240,
      11558484969713301454848, 11613068269041332781056, 11667780158934162079744, 11722624872310168879104, 11777598227227172929536, 11832700205672842657792,
      11887930705646205272064, 11943289684162378727424, 11998777057758960156672, 12054392776051059064832, 12110135744531538116608, 12166006817144640110592,
      12222006150387078266880, 12278133718923717115904, 12334389527911585546240, 12390773595854912618496, 12447286076085756755968, 12503927062804232667136,
      12560699051570980978688, 12617601732175353348096, 12674629263271095435264, 12731784251261514153984, 12789067805679041904640, 12846479978029788430336,
      12904020820880846225408, 12961690419776813268992, 13019488841124177510400, 13077416588060208922624, 13135473976263061798912, 13193660298311053082624,
      13251975514551945789440, 13310419649371704393728, 13368992713333501067264, 13427694599045436669952, 13486525195856405069824, 13545483271631196389376,
      13604566581438979244032, 13663780444988485140480, 13723125641268086964224, 13782599463945208070144, 13842201851513362448384, 13901932753442842869760,
      13961792090010204241920, 14021779814484178632704, 14081895876466715918336, 14142139110752216154112, 14202510486772805271552, 14263010120167430553600,
      14323638057769229090816, 14384394252963173892096, 14445278740320276709376, 14506291683489956757504, 14567433347163119157248, 14628707165701018746880,
      14690110269828211146752, 14751637390657503363072, 14813293043623114309632, 14875077283422320721920, 14936990181992123334656, 14999031792737166819328,
      15061202162108562669568, 15123501366017739718656, 15185929997306770227200, 15248488223238954942464, 15311175330083500982272, 15373991310998672244736,
      15436936171904863043584, 15500009910952156725248, 15563212417025422917632, 15626543487135147622400, 15690000686795318099968, 15753583074289523884032,
      15817299969324250824704, 15881145540055006183424, 15945119692670715822080, 16009222377615994650624, 16073453551817332883456, 16137813120368368418816,
      16202301070339955752960, 16266917355152008544256, 16331660698210222997504, 16396532307634904104960, 16461532220447778668544, 16526660478199222239232,
      16591917079306048634880, 16657302023944227782656, 16722815485683603341312, 16788458949569337622528, 16854235098869447786496, 16920136312398221934592,
      16986164211269016485888, 17052320686190329069568, 17118605786796494159872, 17185019585668231200768, 17251562080165823512576, 17318233388902908952576,
      17385033522232881577984, 17451963182080428343296, 17519022313838716387328, 17586210242601697673216, 17653527001355127881728, 17720972518829976453120,
      17788546846993852399616, 17856249861758169120768, 17924080899718106841088, 17992036645629809655808, 18060121333345592279040, 18128338314689224114176,
      18196683988329438380032, 18265158220935617052672, 18333760964218947895296, 18402492180650946199552, 18471351815542132441088, 18540339836018042601472,
      18609456097257544744960, 18678699523562708926464, 18748071328495190409216, 18817571567661337280512, 18887200261945818087424, 18956957417195456954368,
      19026843014357447606272, 19096857551360560726016, 19167003832697204244480, 19237277934955849056256, 19307678667532046172160, 19378207115741038116864,
      19448865087573018542080, 19519651750626008760320, 19590567008938800185344, 19661611161604593811456, 19732783973236566130688, 19804085419731620724736,
      19875517150693867651072, 19947077104181302001664, 20018765752920149327872, 20090583031110210420736, 20162528909377012760576, 20234603454762546364416,
      20306806548412755869696, 20379135385979307687936, 20451593335912097906688, 20524182113335466000384, 20596899317836511444992, 20669744904136409743360,
      20742718922048292257792, 20815821259917274120192, 20889051987945333981184, 20962410797085189210112, 21035896121640532049920, 21109510274983063977984,
      21183254049892784406528, 21257126417922569273344, 21331127424060263235584, 21405257102477238468608, 21479515444935688978432, 21553902398242872623104,
      21628419956902169935872, 21703067737254239666176, 21777840703506143510528, 21852742405773196263424, 21927772850383889629184, 22002931999000527634432,
      22078219839032908578816, 22153636352242332205056, 22229181527235701506048, 22304857031754374971392, 22380661317363946225664, 22456593152300430655488,
      22532653139113749250048, 22608841512638323097600, 22685158228795624259584, 22761603311467424120832, 22838176889023311642624, 22914877530700804784128,
      22991703800027186987008, 23068662844368671997952]
    3458758583762595789 2309540812276445964 = true := by
  decide +kernel

theorem curves4 : checkAll ⟨40000000000000000000000, 2305843009213693952, 148, 122⟩ (packed 40000000000000000000000 (Nat.pow 2 148) 491 46 (curve 22435 rows.flatten)) 9 491 46 (Nat.mul 1130000000000000000 1152921504606846976)
    3458764513783478034 2305852253737200491 3458740852912924891 2313229332966310450
    [23145750381842543935488, 23222966505354108600320, 23300311228427593056256, 23377784693856583811072, 23455386838367077400576, 23533117770283010228224,
      23610976485804288770048, 23688963396563036536832, 23767079586985723035648, 23845325390641738285056, 23923700193182990991360, 24002203986968969216000,
      24080836718418076893184, 24159598165676156518400, 24238489449563062009856, 24317512395362001747968, 24396659775007086346240, 24475935308813906739200,
      24555339068347724595200, 24634870940484377772032, 24714530880291554197504, 24794318797192994750464, 24874234598265458786304, 24954278902917779947520,
      25034452191003262582784, 25114753339978625843200, 25195181818917909692416, 25275738283243424710656, 25356422979934245355520, 25437236080933171363840,
      25518177926802898419712, 25599247724293149163520, 25680443706476746244096, 25761772741990505512960, 25843231868285435772928, 25924820805805580222464,
      26006539623581809115136, 26088388385339550466048, 26170367011366815924224, 26252475355632498638848, 26334713045250486566912, 26417078678913321795584,
      26499573199949430521856, 26582196574828061786112, 26664948325924437229568, 26747827678894796832768, 26830834188123319042048, 26913967421607588659200,
      26997228016660845166592, 27080617948696258019328, 27164130084709858279424, 27247768434446807597056, 27331533661155291561984, 27415426475133524508672,
      27499447858482779258880, 27583598879779435053056, 27667880725843651067904, 27752294612200635498496, 27836842724427196006400, 27921524287007449153536,
      28006338743788663472128, 28091284148832947929088, 28176357648840037236736, 28261553660956069855232, 28346863590364707553280, 28432273831237024481280,
      28517765706696957624320, 28603322805864630321152, 28688910881818683637760, 28774491282655009570816, 28860015414508110479360, 28945423098095960326144,
      29030641032146465062912, 29115580731105472413696, 29200136643459602710528, 29284183424693488844800, 29367576186606206320640, 29450146452730311344128,
      29531700285013768536064, 29612016248388182867968, 29690843143508647215104, 29767898345480432648192, 29842868914661904875520, 29915401459710872780800,
      29985106126951648591872, 30051560597982178967552, 30114301294707491209216, 30172825364536169070592, 30226590334758072352768, 30275014258259574915072,
      30317476321083279802368, 30353317773004909838336, 30381844227634193498112, 30402325861470899798016, 30414001057714235506688, 30416079816664643796992,
      30407747000418944679936, 30388167105215155142656, 30356488083337956556800, 30311844573860161650688, 30253373653802750574592, 30180208102230005383168,
      30091487765223746568192, 29986368393638972489728, 29864027708414614306816, 29723672884105732685824, 29564548372701372219392, 29385943420301528268800,
      29187200145070237941760, 28967720743076179738624, 28726975703091286900736, 28464511476759611310080, 28179956363444516552704, 27873027413139072745472,
      27543536574375726678016, 27191396987224991989760, 26816626358589765713920, 26419346074663376650240, 25999796783564902629376, 25558330741468403073024,
      25095415743288172347392, 24611635449862331301888, 24107688736864889470976, 23584387903959924211712, 23042656105883980791808, 22483523196935823425536,
      21908121564514984394752, 21317680299797886533632, 20713517267849354149888, 20097032907893839495168, 19469703045677813071872, 18833064020364484411392,
      18188708532873261481984, 17538279503849620242432, 16883449194074494468096, 16225912024363134091264, 15567374877185143734272, 14909544698699604557824,
      14254117080285795319808, 13602764972083587842048, 12957127483231842598912, 12318799227067614363648, 11689320008033459240960, 11070165360469583331328,
      10462737223635871727616, 9868354864611307028480, 9288245743792433397760, 8723554657488549707776, 8175309729649031905280, 7644435415249940643840,
      7131749852056507121664, 6637958278395638841344, 6163650933812100071424, 5709303675414743351296, 5275277744007145324544, 4861821808408917966848,
      4469073927371646042112, 4097064972014950809600, 3745722688585560752128, 3414876240197267750912, 3104263747036169895936, 2813532417194849730560,
      2542254203961416351744, 2289926926336899678208, 2055982108180028588032, 1839792616829681664000, 1640681750526018977792, 1457929588085127905280,
      1290783165907067731968, 1138461930360300896256, 1000165751289789415424, 875082229418857725952, 762398831984454664192, 661289309636373905408, 570947510360417501184,
      490576843422444945408, 419397988967422689280, 356653902188113821696, 301613668224555876352, 253576088598774382592, 211870552737499316224, 175863974013744447488,
      144966890018655846400, 118607695792021061632, 96269733881250103296, 77470326936676974592, 61765508908828606464, 48749363601064730624, 38053083377919582208,
      29343355902270390272, 22327035616197640192, 16727485515381399552, 12317586490478870528, 8892188733422934016, 6273947607235024896, 4300770926010552832,
      2849566593974698496, 1806603382166713600, 1078463477751027072]
    3458751171204462028 2311389701920517594 = true := by
  decide +kernel

end Verif.MidQual
