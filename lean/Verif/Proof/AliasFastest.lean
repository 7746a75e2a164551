import Verif.Model.CoeffsFastest
import Verif.Proof.SineMid2
import Verif.Proof.AliasTable

/-! The second differences of the table of fastest_coeffs.h on complex exponentials, evaluated by the kernel: angles 0, ..., 798 times 1/254 per frame, all phases
of the table. The lists are the factors that the sums are compared with. -/

set_option maxRecDepth 1000000
set_option Elab.async false

namespace Verif.Fastest
open Verif.Sine Verif.Coeffs Verif.Alias

theorem curved : Curved rows.flatten 2461 400000000000000000000000 6271000000000000000000000000000 260000000000000000000 := by
  constructor
  all_goals decide +kernel

theorem curves1 : checkAll ⟨400000000000000000000000, 2305843009213693952, 148, 126⟩ (packed 400000000000000000000000 (Nat.pow 2 148) 128 20 (curve 2461 rows.flatten)) 8 128 20 (Nat.mul 8700000000000000000 1152921504606846976)
    3458764513275182070 2305878470628077105 3458677257503901421 2320027217124880057
    [0, 0, 2279470369978610432, 7031346045268288512, 13683798949923831808, 22239801517221310464, 32692740488861011968, 45045582401255129088, 59298017859011035136,
      75449694670245871616, 93321520395528896512, 112919226730361487360, 134417870916592369664, 157825779718644957184, 183480034625161625600, 211187609583162425344,
      240803556980869890048, 272316683296610680832, 305729063304184201216, 341036519968583647232, 378241999697885724672, 417341894652768813056, 458326491701420163072,
      501206264199434469376, 545970600679315996672, 592629371611946811392, 641165022440187232256, 691580340429590626304, 743883470221837860864, 797582051034904264704,
      853161496001341554688, 910620445656997560320, 969963590276510777344, 1031481171024806674432, 1094930253728527417344, 1160263747334456737792,
      1227481364146923765760, 1296582863338157637632, 1367568052120090574848, 1440436786635760730112, 1515188972566375301120, 1591827959490450292736,
      1670346958091853758464, 1750749404419377594368, 1833038717768948776960, 1917208355623250690048, 2003265044764735569920, 2091205660857894961152,
      2181030441259628494848, 2272739668711900184576, 2366336319989083013120, 2461956690926470955008, 2559631720785539760128, 2659188688318966005760,
      2760626126962132254720, 2863784672411200782336, 2968520688034714746880, 3075138295523913498624, 3183639202075203076096, 3294024577408608763904,
      3406295200074957848576, 3520458536182682746880, 3636510538395891007488, 3754459096139080663040, 3874300713565537435648, 3996031953412901830656,
      4119670432759692656640, 4245198949713114562560, 4372635135824387112960, 4501972749530202374144, 4633539522585769803776, 4767135162913440923648,
      4902638050119625211904, 5040039492886550544384, 5179315855373885243392, 5320218492834268839936, 5463019029380238147584, 5607720379294701060096,
      5754319423903674400768, 5902819298024864350208, 6053216699943168770048, 6205518318484479541248, 6359713978904964235264, 6515813830598412206080,
      6673811004735041306624, 6833708835610311000064, 6995507196731685076992, 7159202716646137397248, 7324798572718746238976, 7492288597180935045120,
      7661681874326188457984, 7832969675336687026176, 8006072040042870603776, 8180889226727199342592, 8357610120524538576896, 8536231376332281348096,
      8716759113871374942208, 8899605759625817751552, 9084373744627783565312, 9271043285622441639936, 9459609742663944765440, 9650072087002427162624,
      9842433051061016068096, 10036691348119317643264, 10232833523028112441344, 10430869685821876731904, 10630796221448298954752, 10832609509448693579776,
      11036302421946299056128, 11241882015439693807616, 11449341077092938285056, 11658469180248151818240, 11869262490108205989888, 12081938330982788628480,
      12296496461465570508800, 12512941031731243253760, 12731348655477501198336, 12951821241850454343680, 13174182093283682942976, 13398425426628991516672,
      13624554650270471028736, 13852570086317708279808, 14082471998356610613248, 14314257143624693186560, 14547929098840231116800, 14783484565926833029120,
      15020930479502177337344, 15260260058626701393920, 15501476693537602928640, 15744583425504164446208, 15989573691989278326784, 16236453397654455451648,
      16485221810433599471616, 16735898601573511593984, 16988670230508632801280, 17243321744037972541440, 17499858223782313328640, 17758274382758584254464,
      18018334296075646533632, 18280094990072979390464, 18543740799856230268928, 18809270074628385013760, 19076687168423933771776, 19345992952169044639744,
      19617189703981153124352, 19890276556976781524992, 20165257685198421622784, 20442133482102172155904, 20720907700182026551296, 21001580339557207900160,
      21284158571365810569216, 21568635039352925192192, 21855164733910731980800, 22143851306762205396992, 22434443609128094924800, 22726936972099311370240,
      23021335652425797730304, 23317630053651557908480, 23615695811066401390592, 23915565759800134336512, 24217332419969519976448, 24520998263570579849216,
      24826562746569986146304, 25134025376278220111872, 25443385718933850947584, 25754639917621773860864, 26067791199515847950336, 26382839400181471903744,
      26699781058076604366848, 27018619686335385960448, 27339349010326025666560, 27661976067686455574528, 27986498267215762030592, 28312913675849044066304,
      28641223795744792641536, 28971271907699886915584, 29303185847210456645632, 29637002682274638987264, 29972724879893576286208, 30310418624145784832000,
      30650346930777903595520, 30992174836530106335232, 31335903759584982990848, 31681532491152589062144, 32029053673446548963328, 32378468477299991773184,
      32729780761556722647040, 33082978890824296693760, 33438069094191674163200, 33795040060661842313216, 34153899004069006016512, 34514642371542767370240,
      34877266639001248333824, 35241642882371447422976, 35607642454605955072000, 35975525547347686719488, 36345288552890312425472, 36716935557887295488000,
      37090461261436060434432, 37465868217271090937856, 37843323129351960002560, 38222691637299515490304, 38603947091313486200832, 38987090584501972107264,
      39372119527293118840832, 39759034602551511089152, 40147843528319890882560, 40538539688500276494336, 40931126927253452095488, 41325605341155901308928,
      41721981538787332718592, 42120248111710750113792, 42520404453537429323776, 42922455794274254454784, 43326400273330840010752, 43732233006586315931648,
      44140036848733812424704, 44549801311044114579456, 44961450104359697252352, 45374977137058013773824, 45790387731193741180928, 46207367762949741477888,
      46626150975748997906432, 47046814118008940658688, 47469367904620949536768, 47893803475062250012672, 48320137514287844294656, 48748354670964519206912,
      49178470439870726668288, 49610482964623412690944, 50044393046380728287232, 50480200960796006547456, 50917910473406117052416, 51357525218636209324032,
      51799195060431654748160, 52242977196258025799680, 52688668015845967921152, 53136260694211119022080, 53585759338591990841344, 54037160065377836728320,
      54490462049880141463552, 54945645398223990292480, 55402595737832200863744, 55861444762233986875392, 56322190988354542108672, 56784833084829711990784,
      57249369890308183031808, 57715800428690278449152, 58184123921145150832640, 58654336224362393239552, 59126437152989974102016, 59600423426534590644224,
      60076295826721772404736, 60554052359860676198400, 61033701224493552238592, 61515241106070371827712, 61998671626998372106240, 62483965383759007580160,
      62971061602316435062784, 63460060742756618731520, 63950958540046389477376, 64443759882609394450432, 64938633178681599590400, 65435627698072313659392,
      65934522975640681971712, 66435314270933992079360, 66938002319915870060544, 67442581969398478667776, 67949059950021829459968, 68457423134838895935488,
      68967676189209098452992, 69479814187884663013376, 69993836374291145293824, 70509738614965240070144, 71027521009097354772480, 71546963557478553354240,
      72068159735726373601280, 72591231706416541597696, 73116186044117590999040, 73643021505008930652160, 74171733473028707713024, 74702329311066780073984,
      75234805635250493849600, 75769212573130625646592, 76305572301259120050176, 76843817754486280028160, 77383950703225290620928, 77925972752990509989888,
      78469885324627248414720, 79015693338573403062272, 79563397683340149522432, 80113006096450926411776, 80664518265529205522432, 81217936691438930624512,
      81773256211861726035968, 82330477864655400206336, 82889592558019992879104, 83450606112252803153920, 84013508611993170345984, 84578387443879847657472,
      85145155107558397050880, 85713804739634119311360, 86284339690193769463808, 86856714822271895601152, 87430623159939860791296, 88006418767483519369216,
      88584098017963950473216, 89163668563062473883648, 89745127255906195603456, 90328477002452036485120, 90913725897925491425280, 91500870314747957870592,
      92089912071063833935872, 92680856122156673662976, 93273703061405233577984, 93868461088226905423872, 94465450360218616594432, 95064348737293007192064,
      95665149763290587463680, 96267859442364714057728, 96872471137146948812800, 97478986369157944049664, 98087406251357792894976, 98697731290977838039040,
      99309957525717341175808, 99924024129368048533504, 100539974144481956986880, 101157817380059408760832, 101777559235199806472192, 102399190136632104714240,
      103022708360540728590336, 103648112545658593869824, 104275390592001685585920, 104904542672465287970816, 105535559199252440678400, 106168446406251348230144,
      106803217477225473376256, 107439869145171082870784, 108078405878436138582016, 108718832781938120458240, 109361111337137111826432, 110005274025784229494784,
      110651334083235459104768, 111299293279896251400192, 111949168229688906088448, 112601245056064192249856, 113255298860290500722688, 113911250256970219782144,
      114569098974858783490048, 115228837471205560680448, 115890463571751557136384, 116553980863004381544448, 117219385478983977009152, 117886674712234463068160,
      118555842858923692392448, 119226892947455217762304, 119899629710650082590720, 120574108810521700466688, 121250469778894484406272, 121928706227033773965312,
      122608820381859358703616, 123290814572526399651840, 123974691207069481041920, 124660448526583514267648, 125348085205484389269504, 126037600561273902202880,
      126729010219777381105664, 127422332086929875533824, 128117537651932329410560, 128814633346566316883968, 129513625767002631045120, 130214513310129645944832,
      130917305848794087161856, 131622008600216612110336, 132328640762591611715584, 133037204072733178068992, 133747691432081331585024, 134460094976147612237824,
      135174400085999010971648, 135890611185489138417664, 136608721387756936232960, 137328733019613553491968, 138050644502014599364608, 138774441923176485093376,
      139500128683809218494464, 140227681579352346066944, 140956895471183616540672, 141687832232017713430528, 142420657213158904037376, 143155368701238500655104,
      143891977039056637788160, 144630476610342129500160, 145370875385622202155008, 146113172162101515386880, 146857370532618208018432, 147603468707084101484544,
      148351591083320186765312, 149101822543327104335872, 149853958455751996342272, 150608000666341589647360]
    3458764513820540928 2305843009213693952 = true := by
  decide +kernel

theorem curves2 : checkAll ⟨400000000000000000000000, 2305843009213693952, 148, 126⟩ (packed 400000000000000000000000 (Nat.pow 2 148) 128 20 (curve 2461 rows.flatten)) 8 128 20 (Nat.mul 8700000000000000000 1152921504606846976)
    3458764513275182070 2305878470628077105 3458416373702515098 2334173827342263923
    [151363940886013433348096, 152121783249439882739712, 152881534597353678307328, 153643183235942154502144, 154406740326899144196096, 155172198350939234500608,
      155939558542687147655168, 156708825579784383758336, 157479974937299077038080, 158253024264640027164672, 159027964068064923746304, 159804787113800163655680,
      160583490644581701124096, 161364072342847867584512, 162146522450978058272768, 162930820981580812517376, 163716966142778426785792, 164504954605298044108800,
      165294806303176256389120, 166086530128084174110720, 166880132174106366836736, 167675613828449860321280, 168472979163965200269312, 169272216956533955624960,
      170073348115499529011200, 170876371445145843793920, 171681326405495266738176, 172488461979792407789568, 173297626294022949568512, 174108682141571588554752,
      174921634631557809438720, 175736477056110514143232, 176553209229926157254656, 177371829715035393884160, 178192336803058946146304, 179014726963098831290368,
      179839002599798387769344, 180665139954850065285120, 181492839316237773176832, 182322420510516972617728, 183153876967746755887104, 183987221721418202873856,
      184822442808256426409984, 185659548335210672160768, 186498541490268633300992, 187339420576866117877760, 188182184315013684002816, 189026832097817319702528,
      189873373281964043272192, 190721830383374703788032, 191572208470188187713536, 192424489287755514249216, 193278674010547200983040, 194134764947101559291904,
      194992764018847505186816, 195852676824958446338048, 196714515991897720225792, 197578291825887707922432, 198444007954026109861888, 199311658172098348580864,
      200181224963215934357504, 201052707284276836564992, 201926090067079216496640, 202801386913437581312000, 203678628439968452706304, 204557760364556297699328,
      205438761480923337719808, 206321607538806502719488, 207205880011865873973248, 208092037112530515001344, 208980074713457616748544, 209869990181911180345344,
      210761792298102143582208, 211655478411935994609664, 212551047631102676041728, 213448499665547175133184, 214347836538099934953472, 215249063985043141033984,
      216152176991859600523264, 217057465804389066211328, 217964729579669968388096, 218873887450545457725440, 219784930502128313565184, 220697855362253350502400,
      221612675452397552664576, 222529376636557338869760, 223447966712223923961856, 224368431841585454383104, 225290789760318805377024, 226215026283655806844928,
      227141155227019922898944, 228069050844172244746240, 228998831734675015204864, 229930490107825047470080, 230864035822581223260160, 231799465637188227563520,
      232736777101624010080256, 233675968818950860439552, 234617028954818944696320, 235559953211249221697536, 236504748116272341843968, 237451429175434550444032,
      238400012292553000878080, 239350505172163165683712, 240302891905938343591936, 241257128355963009499136, 242213308913861896699904, 243171483197303848697856,
      244131855197879719165952, 245094458087084069486592, 246059012296709207228416, 247025525906448616259584, 247993978353035681726464, 248964383338374526664704,
      249936722028940343902208, 250910994211048813232128, 251887192815935988695040, 252865289679954887311360, 253845286295484002992128, 254827173562125941473280,
      255810659563239246921728, 256795811606283784552448, 257778710625746786713600, 258767824998556596436992, 259758710599984139468800, 260751337099398089801728,
      261745632668968785281024, 262741579143330287058944, 263739092520622759084032, 264738117130895134556160, 265738578065951134056448, 266740404623350773579776,
      267743218263697249009664, 268747179356077969899520, 269752225523993084428288, 270758239811063097851904, 271765100927436099420160, 272772676816442316816384,
      273780832372498077057024, 274789418929625596166144, 275798284313236162478080, 276807254159024961093632, 277816118899336936423424, 278824654344496328212480,
      279832629245163358650368, 280839876363943298465792, 281846126550254134231040, 282850975464934869041152, 283854255150551787372544, 284855899777733859737600,
      285855222228889322389504, 286851729213444281335808, 287844887665477251235840, 288834680259943617003520, 289820693486535064944640, 290802515147834286669824,
      291779694991166559748096, 292751774696413528588288, 293718267888330289971200, 294678664906492384116736, 295632439151445082636288, 296579028284273586077696,
      297517872557179954790400, 298448363309362791317504, 299369881649327732948992, 300281792189758795939840, 301183409980947080151040, 302074060035092295712768,
      302953018399482928168960, 303819563770195264667648, 304672915470400421363712, 305512307614980685955072, 306336924859556587110400, 307146239651269878743040,
      307939111274803554680832, 308714668406053734973440, 309472004999469179338752, 310210221013045138685952, 310928372906294727671808, 311625512083197869948928,
      312300655406279611645952, 312952777075697567924224, 313580871513891099639808, 314183945297818040664064, 314760975404109494484992, 315310920560193333886976,
      315832551741360426713088, 316325031477090277392384, 316787286649455431909376, 317217899558474514169856, 317616064366495290884096, 317980838674431588958208,
      318311312571002360168448, 318606027651292021653504, 318863878919325441064960, 319083752229531744731136, 319264543865820955017216, 319405151044858053394432,
      319504471777858046394368, 319561425643306357882880, 319574922697098651500544, 319543898032792565448704, 319467300729869404471296, 319344080851529380134912,
      319173220019919411740672, 318953711779870207377408, 318684570734990708441088, 318364841613736649162752, 317993586710522389069824, 317569901859795611156480,
      317092897997834726408192, 316561742355739608875008, 315975602784462430011392, 315333647064093836705792, 314634987904382619615232, 313879122579656225587200,
      313065391451416075173888, 312193179599812715085824, 311261913524190469685248, 310271062309298904236032, 309220140279567916990464, 308108735050084677320704,
      306936590507603891585024, 305703283222873374720000, 304408499827538388844544, 303052037110688280215552, 301633917222968203673600, 300153686786172788932608,
      298611498952687129460736, 297007530878294734929920, 295341626426957431308288, 293613610286137120653312, 291823846634863470837760, 289972744254248890400768,
      288060625548870613467136, 286087890143454460641280, 284054988113568990232576, 281962437831950830927872, 279810828178921881600000, 277600805000378734084096,
      275333093112551680507904, 273008458588622904360960, 270627754173810425724928, 268191880421744054370304, 265701808582935158194176, 263158572131629546864640,
      260563265889928248033280, 257917037402990833565696, 255221101735888673570816, 252476725113590818799616, 249685238805300751892480, 246848036324132039688192,
      243966527258622867537920, 241042226725740416598016, 238076832751279075753984, 235071841919483582087168, 232028809764733838163968, 228949398537689358139392,
      225835354913567187927040, 222688412397874614108160, 219510388423037552689152, 216303112621637272338432, 213068312892251310129152, 209807991803460886462464,
      206524229956069668945920, 203218717493134522056704, 199893478603878326861824, 196550604362592787890176, 193191883822295397957632, 189819556049112377851904,
      186435924401941467103232, 183042947792711693893632, 179642515533225458139136, 176236676920451750952960, 172827483894077435412480, 169416995218448787177472,
      166007259784951573250048, 162600295443156732739584, 159198147539030597697536, 155802816546499073146880, 152416293540293150507008, 149040549821827522756608,
      145677551560708797235200, 142329205041913256738816, 138997414493915338244096, 135684053318708272037888, 132390944649891301818368, 129119884798493634592768,
      125872647522421661761536, 122650949100870846906368, 119456456192804268277760, 116290817919327930417152, 113155624905363905576960, 110052420810563228008448,
      106982625266602134732800, 103947580156303489630208, 100948811510206234099712, 97987655761935904800768, 95065386787593485549568, 92183215839508154023936,
      89342305404829327949824, 86543526661116989014016, 83788099271139851763712, 81077339707410481152000, 78412087158375977058304, 75792939078127110324224,
      73220792683740335702016, 70696366009731273195520, 68220234394756595056640, 65792698056318124032000, 63414549368504817025024, 61086303173379866230784,
      58808352228264529362944, 56581059517999115927552, 54404696219931815968768, 52279477160140576129024, 50205581236716848545792, 48183093549302433185792,
      46212065507010001502208, 44292481785770180345856, 42424260855223015178240, 40607274425616317808640, 38841339872235084578816, 37126221596404905672704,
      35461640713605134417920, 33847243211914581377024, 32282652019097878921216, 30767427693815779033088, 29301094276300936314880, 27883114959652192780288,
      26512919058472543191040, 25189858493476252942336, 23913328528501852078080, 22682681869396953006080, 21497214334495530942464, 20356457301307279015936,
      19259948327946659299328, 18206279826992607002624, 17194617815334530318336, 16223840048865393770496, 15292931066213980700672, 14401437300367263006720,
      13548459295617851588608, 12733001376265094037504, 11954162693282054799360, 11211030799258522484736, 10502652578387413958656, 9828107773640743845888,
      9186569493087273353216, 8576859108726941941760, 7997996351694694252544, 7449008500166746963968, 6928908877781409988608, 6436721205321745301504,
      5971473855563206492160, 5532201370446113800192, 5117945907406368145408, 4727751075033911394304, 4360679221732771889152, 4015804603730442584064,
      3692214485508571004928, 3388992337076000129024, 3105264644055576346624, 2840152863077024923648, 2592827916511164235776, 2362552347224994480128,
      2148453526065811030016, 1949652577277601382400, 1765162245227489525760, 1594378190641087381504, 1436623191446571974656, 1291173603965463953408,
      1157325682650180878336, 1034405977900125388800, 921752588666145341440, 818748269781239201792, 724775613878419980288, 639257348248382210048, 561625354143901810688,
      491342780526176370688, 427904453635553427456, 370912947795652771840, 320002155853704462336, 274532254454528868352, 234077124506286587904, 198220024292963385344,
      166882721369210945536, 138920858678502981632, 114245508054503194624, 92878586622338875392, 74542846079049302016, 58832526898608717824, 45474005479907917824,
      34220843419242483712, 24841278598613319680, 17129117220300480512, 10877620419306459136, 7515585697444474880, 4015321934877960704]
    3458677257503901421 2320027217124880057 = true := by
  decide +kernel

end Verif.Fastest
