import Verif.Model.Coeffs

/-! Generated from src/mid_qual_coeffs.h: the entries of `coeffs`, in the order of the header, `491` (`increment`) entries per row, each
multiplied by `10^27` (the header writes at most 27 decimals, so nothing is rounded); `p` marks non-negative and `m` negative entries. -/

set_option maxRecDepth 100000

namespace Verif.MidQual
open Verif.Coeffs

/-- src/mid_qual_coeffs.h:29-519 -/
def row0 : List ℤ := [
  p 919063234986138510900000000, p 919057927383162054400000000, p 919042004684870628100000000, p 919015467223193938100000000,
  p 918978315551320590300000000, p 918930550443710525400000000, p 918872172896054828500000000, p 918803184125266070300000000,
  p 918723585569437561900000000, p 918633378887811824500000000, p 918532565960740066100000000, p 918421148889634553200000000,
  p 918299129996916541100000000, p 918166511825957654100000000, p 918023297141012051300000000, p 917869488927163246200000000,
  p 917705090390230848700000000, p 917530104956700620600000000, p 917344536273640764900000000, p 917148388208602116700000000,
  p 916941664849536097700000000, p 916724370504678365300000000, p 916496509702451556100000000, p 916258087191348158400000000,
  p 916009107939814493100000000, p 915749577136123815700000000, p 915479500188249861700000000, p 915198882723735618300000000,
  p 914907730589545109500000000, p 914606049851922842100000000, p 914293846796246922900000000, p 913971127926863413600000000,
  p 913637899966931454900000000, p 913294169858257509600000000, p 912939944761110622200000000, p 912575232054059659600000000,
  p 912200039333783685400000000, p 911814374414877781800000000, p 911418245329666643100000000, p 911011660328000516500000000,
  p 910594627877047813100000000, p 910167156661097154200000000, p 909729255581319562500000000, p 909280933755568399100000000,
  p 908822200518141221100000000, p 908353065419547745000000000, p 907873538226277587700000000, p 907383628920555351800000000,
  p 906883347700090158800000000, p 906372704977822185600000000, p 905851711381667978900000000, p 905320377754253780000000000,
  p 904778715152644075200000000, p 904226734848069257900000000, p 903664448325643521200000000, p 903091867284080196400000000,
  p 902509003635403539400000000, p 901915869504650302700000000, p 901312477229563868700000000, p 900698839360299929900000000,
  p 900074968659099083900000000, p 899440878099982743500000000, p 898796580868422623200000000, p 898142090361017553200000000,
  p 897477420185159080500000000, p 896802584158692184200000000, p 896117596309572550500000000, p 895422470875521958600000000,
  p 894717222303665016300000000, p 894001865250184657400000000, p 893276414579943112100000000, p 892540885366125524800000000,
  p 891795292889852597700000000, p 891039652639814439000000000, p 890273980311875434700000000, p 889498291808690111400000000,
  p 888712603239308007700000000, p 887916930918770108700000000, p 887111291367707943700000000, p 886295701311930139700000000,
  p 885470177682008197100000000, p 884634737612860155800000000, p 883789398443317719700000000, p 882934177715702484000000000,
  p 882069093175385843300000000, p 881194162770352118500000000, p 880309404650752136400000000, p 879414837168451257700000000,
  p 878510478876575295900000000, p 877596348529054548500000000, p 876672465080145846300000000, p 875738847683977139600000000,
  p 874795515694062664200000000, p 873842488662827654400000000, p 872879786341122399000000000, p 871907428677727969200000000,
  p 870925435818871829200000000, p 869933828107715356700000000, p 868932626083861237000000000, p 867921850482831436200000000,
  p 866901522235569155200000000, p 865871662467908587100000000, p 864832292500050336900000000, p 863783433846040615800000000,
  p 862725108213233116100000000, p 861657337501750553200000000, p 860580143803948205400000000, p 859493549403854584200000000,
  p 858397576776634863000000000, p 857292248588016003700000000, p 856177587693746078300000000, p 855053617139009292100000000,
  p 853920360157866764600000000, p 852777840172674883600000000, p 851626080793512985100000000, p 850465105817585942400000000,
  p 849294939228650847000000000, p 848115605196411603800000000, p 846927128075923074700000000, p 845729532406989892300000000,
  p 844522842913561167000000000, p 843307084503113535400000000, p 842082282266041093300000000, p 840848461475026010000000000,
  p 839605647584421466200000000, p 838353866229619160100000000, p 837093143226412927900000000, p 835823504570365583000000000,
  p 834544976436159102700000000, p 833257585176953030600000000, p 831961357323731109900000000, p 830656319584645364000000000,
  p 829342498844355402500000000, p 828019922163363064600000000, p 826688616777345952600000000, p 825348610096487633700000000,
  p 823999929704786193700000000, p 822642603359393875800000000, p 821276658989913310700000000, p 819902124697717282800000000,
  p 818519028755248734300000000, p 817127399605330762000000000, p 815727265860456407500000000, p 814318656302084109600000000,
  p 812901599879933267600000000, p 811476125711259044200000000, p 810042263080144042700000000, p 808600041436768224300000000,
  p 807149490396689040000000000, p 805690639740099134900000000, p 804223519411107035100000000, p 802748159516991077700000000,
  p 801264590327450121300000000, p 799772842273868578300000000, p 798272945948564238700000000, p 796764932104026657500000000,
  p 795248831652162424500000000, p 793724675663540213400000000, p 792192495366614735100000000, p 790652322146966790600000000,
  p 789104187546521451700000000, p 787548123262776234000000000, p 785984161148016946500000000, p 784412333208541978600000000,
  p 782832671603860164000000000, p 781245208645911071200000000, p 779649976798262422900000000, p 778047008675315954200000000,
  p 776436337041505386700000000, p 774817994810480192800000000, p 773192015044307678900000000, p 771558430952655194300000000,
  p 769917275891973562600000000, p 768268583364674739800000000, p 766612387018310914600000000, p 764948720644747393000000000,
  p 763277618179328487500000000, p 761599113700048180300000000, p 759913241426707797300000000, p 758220035720084339900000000,
  p 756519531081069285200000000, p 754811762149841025700000000, p 753096763705001226400000000, p 751374570662726837300000000,
  p 749645218075908559300000000, p 747908741133292420700000000, p 746165175158617688400000000, p 744414555609748895800000000,
  p 742656918077806094100000000, p 740892298286290107400000000, p 739120732090208454300000000, p 737342255475197605500000000,
  p 735556904556633584000000000, p 733764715578757886800000000, p 731965724913779092200000000, p 730159969060985236700000000,
  p 728347484645853193700000000, p 726528308419142621100000000, p 724702477256003896300000000, p 722870028155075283700000000,
  p 721030998237571552100000000, p 719185424746377144300000000, p 717333345045137238400000000, p 715474796617340591500000000,
  p 713609817065405049900000000, p 711738444109753953800000000, p 709860715587900315000000000, p 707976669453513451900000000,
  p 706086343775494618100000000, p 704189776737049633000000000, p 702287006634751187500000000, p 700378071877604702100000000,
  p 698463010986113741500000000, p 696541862591329219400000000, p 694614665433920697200000000, p 692681458363212820800000000,
  p 690742280336255398700000000, p 688797170416856396900000000, p 686846167774644023000000000, p 684889311684098278700000000,
  p 682926641523596500400000000, p 680958196774461566000000000, p 678984017019987340400000000, p 677004141944480664100000000,
  p 675018611332290685600000000, p 673027465066845853600000000, p 671030743129676254800000000, p 669028485599439726200000000,
  p 667020732650949743600000000, p 665007524554196649500000000, p 662988901673365660400000000, p 660964904465854874400000000,
  p 658935573481293168600000000, p 656900949360552100000000000, p 654861072834756918800000000, p 652815984724301690000000000,
  p 650765725937847205900000000, p 648710337471336995200000000, p 646649860406996124200000000, p 644584335912334549500000000,
  p 642513805239147251000000000, p 640438309722510812300000000, p 638357890779784331600000000, p 636272589909603003600000000,
  p 634182448690866817900000000, p 632087508781738249800000000, p 629987811918631179800000000, p 627883399915193152200000000,
  p 625774314661301733800000000, p 623660598122040776800000000, p 621542292336686896800000000, p 619419439417692840900000000,
  p 617292081549667415200000000, p 615160260988352192200000000, p 613024020059601104600000000, p 610883401158356265100000000,
  p 608738446747620787200000000, p 606589199357434494300000000, p 604435701583840412400000000, p 602277996087867584200000000,
  p 600116125594484017800000000, p 597950132891576058300000000, p 595780060828912883000000000, p 593605952317107665700000000,
  p 591427850326588844300000000, p 589245797886554845100000000, p 587059838083947460600000000, p 584870014062397913800000000,
  p 582676369021202900100000000, p 580478946214268765000000000, p 578277788949080440200000000, p 576072940585651727100000000,
  p 573864444535483464400000000, p 571652344260519029700000000, p 569436683272095511800000000, p 567217505129900767500000000,
  p 564994853440922040200000000, p 562768771858399019500000000, p 560539304080775346900000000, p 558306493850645013700000000,
  p 556070384953708196600000000, p 553831021217710550700000000, p 551588446511400265500000000, p 549342704743467802300000000,
  p 547093839861494624100000000, p 544841895850902036000000000, p 542586916733892143900000000, p 540328946568393253500000000,
  p 538068029447007600800000000, p 535804209495952088500000000, p 533537530874000798200000000, p 531268037771429835200000000,
  p 528995774408956398500000000, p 526720785036688288200000000, p 524443113933054649900000000, p 522162805403758367700000000,
  p 519879903780705587800000000, p 517594453420961220200000000, p 515306498705673687900000000, p 513016084039024877800000000,
  p 510723253847169211800000000, p 508428052577170830300000000, p 506130524695946548700000000, p 503830714689203151800000000,
  p 501528667060376465200000000, p 499224426329574921800000000, p 496918037032516135600000000, p 494609543719468192100000000,
  p 492298990954184001500000000, p 489986423312851693300000000, p 487671885383023362400000000, p 485355421762561578500000000,
  p 483037077058579622500000000, p 480716895886375672500000000, p 478394922868381700100000000, p 476071202633096990400000000,
  p 473745779814034762000000000, p 471418699048661737900000000, p 469090004977334440500000000, p 466759742242251196600000000,
  p 464427955486384991300000000, p 462094689352433696200000000, p 459759988481757253500000000, p 457423897513326127600000000,
  p 455086461082661875000000000, p 452747723820783043400000000, p 450407730353153013000000000, p 448066525298619955400000000,
  p 445724153268368783500000000, p 443380658864864496400000000, p 441036086680803296500000000, p 438690481298058099200000000,
  p 436343887286626874700000000, p 433996349203585152200000000, p 431647911592036137600000000, p 429298618980060109300000000,
  p 426948515879666756800000000, p 424597646785751681200000000, p 422246056175046347000000000, p 419893788505072973500000000,
  p 417540888213102923100000000, p 415187399715111815600000000, p 412833367404737638900000000, p 410478835652237639100000000,
  p 408123848803449929000000000, p 405768451178754263600000000, p 403412687072031706000000000, p 401056600749631175800000000,
  p 398700236449330058800000000, p 396343638379302254400000000, p 393986850717081893400000000, p 391629917608533106900000000,
  p 389272883166818684000000000, p 386915791471369008300000000, p 384558686566855934000000000, p 382201612462162998400000000,
  p 379844613129362906900000000, p 377487732502688133600000000, p 375131014477513180500000000, p 372774502909331284500000000,
  p 370418241612732623800000000, p 368062274360388463900000000, p 365706644882031639600000000, p 363351396863442255300000000,
  p 360996573945433885100000000, p 358642219722841937300000000, p 356288377743511575100000000, p 353935091507287746800000000,
  p 351582404465011044700000000, p 349230360017510843600000000, p 346879001514598106500000000, p 344528372254068293600000000,
  p 342178515480697442700000000, p 339829474385244245700000000, p 337481292103455177100000000, p 335134011715067181600000000,
  p 332787676242815133600000000, p 330442328651442407400000000, p 328098011846710169200000000, p 325754768674409889200000000,
  p 323412641919379129100000000, p 321071674304517384900000000, p 318731908489806981000000000, p 316393387071331355600000000,
  p 314056152580298786300000000, p 311720247482069279200000000, p 309385714175179071800000000, p 307052594990371241500000000,
  p 304720932189629367700000000, p 302390767965205808900000000, p 300062144438664857300000000, p 297735103659915567600000000,
  p 295409687606253967800000000, p 293085938181407601500000000, p 290763897214577404800000000, p 288443606459489632100000000,
  p 286125107593440897200000000, p 283808442216355150100000000, p 281493651849835435600000000, p 279180777936222313000000000,
  p 276869861837653386000000000, p 274560944835126385900000000, p 272254068127562198800000000, p 269949272830874220700000000,
  p 267646599977035937200000000, p 265346090513157106800000000, p 263047785300553838000000000, p 260751725113832377700000000,
  p 258457950639962630300000000, p 256166502477368440700000000, p 253877421135007996800000000, p 251590747031465777900000000,
  p 249306520494042310700000000, p 247024781757847922100000000, p 244745570964901820700000000, p 242468928163230568200000000,
  p 240194893305970269500000000, p 237923506250472011100000000, p 235654806757413404200000000, p 233388834489904190000000000,
  p 231125629012607636300000000, p 228865229790851249000000000, p 226607676189751139400000000, p 224353007473334087300000000,
  p 222101262803663906900000000, p 219852481239970060100000000, p 217606701737782709500000000, p 215363963148064052600000000,
  p 213124304216351978500000000, p 210887763581897508300000000, p 208654379776811976800000000, p 206424191225216130400000000,
  p 204197236242389001900000000, p 201973553033923447500000000, p 199753179694886623400000000, p 197536154208977049500000000,
  p 195322514447690415200000000, p 193112298169489993200000000, p 190905543018974388500000000, p 188702286526052559500000000,
  p 186502566105123474000000000, p 184306419054255793400000000, p 182113882554371997500000000, p 179924993668438865100000000,
  p 177739789340655596200000000, p 175558306395651952900000000, p 173380581537685374300000000, p 171206651349842226000000000,
  p 169036552293245212500000000, p 166870320706260955000000000, p 164707992803713454400000000, p 162549604676099801500000000,
  p 160395192288810523000000000, p 158244791481353674900000000, p 156098437966579378600000000, p 153956167329915572000000000,
  p 151818015028596931000000000, p 149684016390907809200000000, p 147554206615420402400000000, p 145428620770243322000000000,
  p 143307293792270695800000000, p 141190260486433405400000000, p 139077555524958484900000000, p 136969213446628462800000000,
  p 134865268656047698800000000, p 132765755422908970900000000, p 130670707881267472700000000, p 128580160028817058700000000,
  p 126494145726169071600000000, p 124412698696138676600000000, p 122335852523031113300000000, p 120263640651935260800000000,
  p 118196096388018409600000000, p 116133252895827446300000000, p 114075143198591938400000000, p 112021800177533159500000000,
  p 109973256571175376200000000, p 107929544974663005300000000, p 105890697839080394300000000, p 103856747470775390200000000,
  p 101827726030689721900000000, p 99803665533689758790000000, p 97784597847904553000000000, p 95770554694065840320000000,
  p 93761567644854090790000000, p 91757668124246558050000000, p 89758887406872350790000000, p 87765256617368656020000000,
  p 85776806729743138020000000, p 83793568566741152840000000, p 81815572799214170140000000]

/-- src/mid_qual_coeffs.h:520-1010 -/
def row1 : List ℤ := [
  p 79842849945496355280000000, p 77875430370783177430000000, p 75913344286513917410000000, p 73956621749760434460000000,
  p 72005292662617875750000000, p 70059386771602630280000000, p 68118933667051920210000000, p 66183962782529109910000000,
  p 64254503394233150600000000, p 62330584620413131970000000, p 60412235420785671820000000, p 58499484595958613220000000,
  p 56592360786857136280000000, p 54690892474156128920000000, p 52795107977716623780000000, p 50905035456025815590000000,
  p 49020702905642248030000000, p 47142138160645857830000000, p 45269368892091696450000000, p 43402422607468689460000000,
  p 41541326650163773460000000, p 39686108198928218840000000, p 37836794267351155090000000, p 35993411703335961850000000,
  p 34155987188582176420000000, p 32324547238071564550000000, p 30499118199559010350000000, p 28679726253067638900000000,
  p 26866397410389326880000000, p 25059157514589074780000000, p 23258032239514590120000000, p 21463047089310606510000000,
  p 19674227397936883830000000, p 17891598328692661510000000, p 16115184873743877010000000, p 14345011853656788880000000,
  p 12581103916935428360000000, p 10823485539563424200000000, p 9072181024551642312000000, p 7327214501490089335000000,
  p 5588609926104382876000000, p 3856391079816731595000000, p 2130581569313045372000000, p 411204826112891827700000,
  m 1301715893853703891000000, m 3008157510666674764000000, m 4708097120829565600000000, m 6401511997679847077000000,
  m 8088379591793346673000000, m 9768677531385444243000000, m 11442383622704620920000000, m 13109475850423770240000000,
  m 14769932378025858390000000, m 16423731548183835570000000, m 18070851883136604400000000, m 19711272085060287110000000,
  m 21344971036433207920000000, m 22971927800397463210000000, m 24592121621115525100000000, m 26205531924120006870000000,
  m 27812138316660871270000000, m 29411920588046761710000000, m 31004858709980737120000000, m 32590932836891892130000000,
  m 34170123306262588370000000, m 35742410638948403370000000, m 37307775539495720290000000, m 38866198896452680560000000,
  m 40417661782676847500000000, m 41962145455635022070000000, m 43499631357700997700000000, m 45030101116446910600000000,
  m 46553536544929628730000000, m 48069919641972193300000000, m 49579232592441180310000000, m 51081457767517018940000000,
  m 52576577724961090500000000, m 54064575209377650770000000, m 55545433152469382570000000, m 57019134673289582900000000,
  m 58485663078488007990000000, m 59945001862552610430000000, m 61397134708045093820000000, m 62842045485833789020000000,
  m 64279718255317794260000000, m 65710137264649082220000000, m 67133286950949042080000000, m 68549151940518832090000000,
  m 69957717049045325950000000, m 71358967281801730100000000, m 72752887833844967490000000, m 74139464090204179600000000,
  m 75518681626067493680000000, m 76890526206963155650000000, m 78254983788934071030000000, m 79612040518708182550000000,
  m 80961682733864795410000000, m 82303896962993727810000000, m 83638669925850797630000000, m 84965988533508896020000000,
  m 86285839888501122960000000, m 87598211284961952080000000, m 88903090208761983980000000, m 90200464337636995780000000,
  m 91490321541313118780000000, m 92772649881626478850000000, m 94047437612636911040000000, m 95314673180737580220000000,
  m 96574345224759397530000000, m 97826442576071009900000000, m 99070954258671073410000000, m 100307869489277792800000000,
  m 101537177677413867300000000, m 102758868425484206600000000, m 103972931528849690800000000, m 105179356975896420900000000,
  m 106378134948098113100000000, m 107569255820075246300000000, m 108752710159649088100000000, m 109928488727888601400000000,
  m 111096582479153660500000000, m 112256982561134394100000000, m 113409680314882993500000000, m 114554667274842203500000000,
  m 115691935168868068100000000, m 116821475918247416600000000, m 117943281637710742400000000, m 119057344635440168200000000,
  m 120163657413071542400000000, m 121262212665692245600000000, m 122353003281833128100000000, m 123436022343456630600000000,
  m 124511263125939006200000000, m 125578719098046409600000000, m 126638383921909264400000000, m 127690251452987596500000000,
  m 128734315740033911100000000, m 129770571025050157600000000, m 130799011743240628500000000, m 131819632522957475000000000,
  m 132832428185644446600000000, m 133837393745772581500000000, m 134834524410772732500000000, m 135823815580962903300000000,
  m 136805262849469172500000000, m 137778862002144786300000000, m 138744609017479758600000000, m 139702500066509277500000000,
  m 140652531512715756000000000, m 141594699911925192600000000, m 142529002012200117800000000, m 143455434753726240900000000,
  m 144373995268694488300000000, m 145284680881179045800000000, m 146187489107008017400000000, m 147082417653632724400000000,
  m 147969464419989232800000000, m 148848627496355023800000000, m 149719905164203553900000000, m 150583295896049546000000000,
  m 151438798355293946500000000, m 152286411396060000800000000, m 153126134063027247200000000, m 153957965591259793300000000,
  m 154781905406028458300000000, m 155597953122629778500000000, m 156406108546200295400000000, m 157206371671523487100000000,
  m 157998742682834814000000000, m 158783221953619768700000000, m 159559810046409456000000000, m 160328507712568263400000000,
  m 161089315892079781900000000, m 161842235713325094400000000, m 162587268492858622000000000, m 163324415735178918300000000,
  m 164053679132491747600000000, m 164775060564473663200000000, m 165488562098024844000000000, m 166194185987023540500000000,
  m 166891934672068698000000000, m 167581810780224882400000000, m 168263817124756881500000000, m 168937956704863612200000000,
  m 169604232705404423000000000, m 170262648496623147900000000, m 170913207633864638900000000, m 171555913857290465200000000,
  m 172190771091585564900000000, m 172817783445663619700000000, m 173436955212367127600000000, m 174048290868161287200000000,
  m 174651795072825327700000000, m 175247472669136789000000000, m 175835328682555081000000000, m 176415368320895271600000000,
  m 176987596974003541500000000, m 177552020213421285500000000, m 178108643792050269600000000, m 178657473643810044100000000,
  m 179198515883292663900000000, m 179731776805411108700000000, m 180257262885046287700000000, m 180774980776684329700000000,
  m 181284937314055288900000000, m 181787139509763356900000000, m 182281594554915438200000000, m 182768309818741370200000000,
  m 183247292848214476900000000, m 183718551367664600900000000, m 184182093278387776200000000, m 184637926658250656200000000,
  m 185086059761292914800000000, m 185526501017321987500000000, m 185959259031506091200000000, m 186384342583961887300000000,
  m 186801760629337704200000000, m 187211522296393845200000000, m 187613636887574764000000000, m 188008113878584126600000000,
  m 188394962917947272900000000, m 188774193826575148500000000, m 189145816597322075100000000, m 189509841394540079500000000,
  m 189866278553627171300000000, m 190215138580574844000000000, m 190556432151507054700000000, m 190890170112219065300000000,
  m 191216363477709566700000000, m 191535023431710305100000000, m 191846161326210573600000000, m 192149788680977512400000000,
  m 192445917183074327600000000, m 192734558686370460700000000, m 193015725211053174000000000, m 193289428943128949200000000,
  m 193555682233927550700000000, m 193814497599595708700000000, m 194065887720591606600000000, m 194309865441173651400000000,
  m 194546443768882748600000000, m 194775635874027380800000000, m 194997455089156612700000000, m 195211914908536732200000000,
  m 195419028987616622000000000, m 195618811142496879000000000, m 195811275349390107000000000, m 195996435744076796800000000,
  m 196174306621362509700000000, m 196344902434525236900000000, m 196508237794763784800000000, m 196664327470640665200000000,
  m 196813186387519351000000000, m 196954829627000310700000000, m 197089272426353628900000000, m 197216530177945104100000000,
  m 197336618428662707900000000, m 197449552879335493700000000, m 197555349384151063300000000, m 197654023950070784100000000,
  m 197745592736235820100000000, m 197830072053377353800000000, m 197907478363217398400000000, m 197977828277868500600000000,
  m 198041138559229751300000000, m 198097426118377884000000000, m 198146708014958622400000000, m 198189001456569702200000000,
  m 198224323798142476600000000, m 198252692541323966000000000, m 198274125333847778300000000, m 198288639968909274900000000,
  m 198296254384531772700000000, m 198296986662932606100000000, m 198290855029885637600000000, m 198277877854078021800000000,
  m 198258073646467553000000000, m 198231461059633795600000000, m 198198058887126327100000000, m 198157886062810845200000000,
  m 198110961660211609700000000, m 198057304891851943000000000, m 197996935108587707200000000, m 197929871798943113300000000,
  m 197856134588437981800000000, m 197775743238916529300000000, m 197688717647870965100000000, m 197595077847761091400000000,
  m 197494844005332903500000000, m 197388036420932749800000000, m 197274675527820075900000000, m 197154781891474895100000000,
  m 197028376208904204600000000, m 196895479307945653300000000, m 196756112146565326200000000, m 196610295812158747400000000,
  m 196458051520839949200000000, m 196299400616738950500000000, m 196134364571284913700000000, m 195962964982495963000000000,
  m 195785223574260425200000000, m 195601162195617434000000000, m 195410802820035395300000000, m 195214167544685596200000000,
  m 195011278589715814100000000, m 194802158297519761900000000, m 194586829132002592200000000, m 194365313677848650100000000,
  m 194137634639778927600000000, m 193903814841813765300000000, m 193663877226528474700000000, m 193417844854306908400000000,
  m 193165740902593363600000000, m 192907588665143764400000000, m 192643411551269350100000000, m 192373233085082667700000000,
  m 192097076904739538800000000, m 191814966761679139800000000, m 191526926519859419500000000, m 191232980154993570400000000,
  m 190933151753781588100000000, m 190627465513141941500000000, m 190315945739437775200000000, m 189998616847703638600000000,
  m 189675503360868885600000000, m 189346629908979241500000000, m 189012021228415677500000000, m 188671702161110205200000000,
  m 188325697653763779500000000, m 187974032757055709000000000, m 187616732624856980000000000, m 187253822513436890600000000,
  m 186885327780670518200000000, m 186511273885243827900000000, m 186131686385854977500000000, m 185746590940415956500000000,
  m 185356013305250949500000000, m 184959979334292812200000000, m 184558514978278881400000000, m 184151646283941983200000000,
  m 183739399393203661800000000, m 183321800542363411200000000, m 182898876061283577300000000, m 182470652372578978600000000,
  m 182037155990797588900000000, m 181598413521605661600000000, m 181154451660965110100000000, m 180705297194314690200000000,
  m 180250976995747463900000000, m 179791518027184876700000000, m 179326947337551362300000000, m 178857292061947476000000000,
  m 178382579420819920000000000, m 177902836719130846800000000, m 177418091345526302000000000, m 176928370771502752000000000,
  m 176433702550569698800000000, m 175934114317417428200000000, m 175429633787074046300000000, m 174920288754070729600000000,
  m 174406107091597040200000000, m 173887116750661402400000000, m 173363345759247972100000000, m 172834822221468981100000000,
  m 172301574316723021800000000, m 171763630298844532900000000, m 171221018495256255300000000, m 170673767306121354500000000,
  m 170121905203490575400000000, m 169565460730450590100000000, m 169004462500273455700000000, m 168438939195557996200000000,
  m 167868919567379842900000000, m 167294432434431761300000000, m 166715506682166669800000000, m 166132171261941324900000000,
  m 165544455190155009900000000, m 164952387547391360300000000, m 164355997477555831900000000, m 163755314187014361400000000,
  m 163150366943730834600000000, m 162541185076402416900000000, m 161927797973597159500000000, m 161310235082885805600000000,
  m 160688525909978507900000000, m 160062700017856385200000000, m 159432787025904798600000000, m 158798816609045101400000000,
  m 158160818496865335200000000, m 157518822472751035500000000, m 156872858373015178200000000, m 156222956086027237000000000,
  m 155569145551342158400000000, m 154911456758828503000000000, m 154249919747795588600000000, m 153584564606121243300000000,
  m 152915421469378781700000000, m 152242520519961316300000000, m 151565891986210565800000000, m 150885566141539390100000000,
  m 150201573303558849600000000, m 149513943833202100900000000, m 148822708133847875200000000, m 148127896650447121700000000,
  m 147429539868643155700000000, m 146727668313898218500000000, m 146022312550616317800000000, m 145313503181264819200000000,
  m 144601270845498453000000000, m 143885646219282514700000000, m 143166660014014540700000000, m 142444342975647952900000000,
  m 141718725883813484500000000, m 140989839550942019900000000, m 140257714821387630100000000, m 139522382570549330300000000,
  m 138783873703992977100000000, m 138042219156575635100000000, m 137297449891566253300000000, m 136549596899769004600000000,
  m 135798691198646542800000000, m 135044763831442149500000000, m 134287845866303018300000000, m 133527968395404317300000000,
  m 132765162534071473600000000, m 131999459419904929800000000, m 131230890211903816800000000, m 130459486089589960000000000,
  m 129685278252133579000000000, m 128908297917476294400000000, m 128128576321459214400000000, m 127346144716946080300000000,
  m 126561034372950770300000000, m 125773276573763942400000000, m 124982902618079524900000000, m 124189943818122705600000000,
  m 123394431498777698600000000, m 122596396996716483500000000, m 121795871659528265300000000, m 120992886844848726600000000,
  m 120187473919490570000000000, m 119379664258574089100000000, m 118569489244660042400000000, m 117756980266880625900000000,
  m 116942168720073139100000000, m 116125086003913774400000000, m 115305763522051477100000000, m 114484232681244649200000000,
  m 113660524890495273600000000, m 112834671560187713200000000, m 112006704101225373900000000, m 111176653924169449600000000,
  m 110344552438378901100000000, m 109510431051149728600000000, m 108674321166858226000000000, m 107836254186102126200000000,
  m 106996261504843162600000000, m 106154374513553626000000000, m 105310624596359730900000000, m 104465043130188950400000000,
  m 103617661483917697400000000, m 102768511017519104100000000, m 101917623081213992700000000, m 101065029014620499900000000,
  m 100210760145907226700000000, m 99354847790945499670000000, m 98497323252465462940000000, m 97638217819209699440000000,
  m 96777562765092098320000000, m 95915389348355001300000000, m 95051728810729679830000000, m 94186612376596146050000000,
  m 93320071252146918890000000, m 92452136624549235980000000, m 91582839661111234420000000, m 90712211508447965210000000,
  m 89840283291649225550000000, m 88967086113449750370000000, m 88092651053398945970000000, m 87217009167034467710000000,
  m 86340191485055631240000000, m 85462229012498655560000000, m 84583152727914445720000000, m 83702993582547013940000000,
  m 82821782499513482700000000, m 81939550372986627580000000, m 81056328067378488610000000, m 80172146416525147390000000,
  m 79287036222874168740000000, m 78401028256673652160000000, m 77514153255162185350000000]

/-- src/mid_qual_coeffs.h:1011-1501 -/
def row2 : List ℤ := [
  m 76626441921761961900000000, m 75737924925271649100000000, m 74848632899064085340000000, m 73958596440281978990000000,
  m 73067846109039658040000000, m 72176412427622863020000000, m 71284325879693133390000000, m 70391616909493248680000000,
  m 69498315921053890890000000, m 68604453277403179560000000, m 67710059299778246890000000, m 66815164266838228400000000,
  m 65919798413879210350000000, m 65023991932052355170000000, m 64127774967582887310000000, m 63231177620991341200000000,
  m 62334229946317737390000000, m 61436961950347056260000000, m 60539403591837098740000000, m 59641584780748428670000000,
  m 58743535377477257290000000, m 57845285192089160310000000, m 56946863983556292310000000, m 56048301458995933300000000,
  m 55149627272912608860000000, m 54250871026440175560000000, m 53352062266589200810000000, m 52453230485493905490000000,
  m 51554405119663714030000000, m 50655615549235012700000000, m 49756891097227834430000000, m 48858261028801891480000000,
  m 47959754550518249320000000, m 47061400809601007520000000, m 46163228893202158660000000, m 45265267827670041530000000,
  m 44367546577818613160000000, m 43470094046199857230000000, m 42572939072379176180000000, m 41676110432213767100000000,
  m 40779636837131108540000000, m 39883546933413137340000000, m 38987869301481146990000000, m 38092632455184377570000000,
  m 37197864841089528510000000, m 36303594837775489400000000, m 35409850755128820240000000, m 34516660833642007210000000,
  m 33624053243715722180000000, m 32732056084962816990000000, m 31840697385515120970000000, m 30950005101333250000000000,
  m 30060007115519496450000000, m 29170731237632301080000000, m 28282205203005436610000000, m 27394456672068679540000000,
  m 26507513229671080670000000, m 25621402384408700770000000, m 24736151567953640340000000, m 23851788134386747030000000,
  m 22968339359533112430000000, m 22085832440300438160000000, m 21204294494020670130000000, m 20323752557793797750000000,
  m 19444233587835806080000000, m 18565764458828914320000000, m 17688371963274513580000000, m 16812082810850156880000000,
  m 15936923627768804360000000, m 15062920956141371410000000, m 14190101253342288220000000, m 13318490891378606880000000,
  m 12448116156261082590000000, m 11579003247380079130000000, m 10711178276883392970000000, m 9844667269056943046000000,
  m 8979496159710283198000000, m 8115690795563606369000000, m 7253276933638790752000000, m 6392280240653525070000000,
  m 5532726292418784463000000, m 4674640573238895459000000, m 3818048475316177144000000, m 2962975298157581594000000,
  m 2109446247985370584000000, m 1257486437150360332000000, m 407120883549762560800000, p 441625489952798995500000,
  p 1288727856103917936000000, p 2134161483832644392000000, p 2977901738819858837000000, p 3819924084065656495000000,
  p 4660204080450173689000000, p 5498717387294599357000000, p 6335439762916334275000000, p 7170347065180650466000000,
  p 8003415252051096843000000, p 8834620382134322075000000, p 9663938615221290968000000, p 10491346212827443520000000,
  p 11316819538726331440000000, p 12140335059481730670000000, p 12961869344975358170000000, p 13781399068931908520000000,
  p 14598901009438539430000000, p 15414352049463873190000000, p 16227729177370846940000000, p 17039009487426180070000000,
  p 17848170180308476490000000, p 18655188563609811230000000, p 19460042052335622260000000, p 20262708169400140550000000,
  p 21063164546119013400000000, p 21861388922696203120000000, p 22657359148710476400000000, p 23451053183595530620000000,
  p 24242449097116543220000000, p 25031525069845537990000000, p 25818259393629763850000000, p 26602630472058692860000000,
  p 27384616820926029060000000, p 28164197068689163920000000, p 28941349956922740590000000, p 29716054340771621420000000,
  p 30488289189397194120000000, p 31258033586420749810000000, p 32025266730364494730000000, p 32789967935087108160000000,
  p 33552116630215039760000000, p 34311692361572797280000000, p 35068674791606142820000000, p 35823043699803026880000000,
  p 36574778983111601300000000, p 37323860656351619260000000, p 38070268852625370470000000, p 38813983823722079950000000,
  p 39554985940519135630000000, p 40293255693380686240000000, p 41028773692550639380000000, p 41761520668542308210000000,
  p 42491477472525157610000000, p 43218625076706110310000000, p 43942944574707279440000000, p 44664417181941321040000000,
  p 45383024235980888580000000, p 46098747196924007300000000, p 46811567647758067780000000, p 47521467294717442690000000,
  p 48228427967637085840000000, p 48932431620304299440000000, p 49633460330804041180000000, p 50331496301861990140000000,
  p 51026521861182651260000000, p 51718519461784420720000000, p 52407471682328482520000000, p 53093361227447538610000000,
  p 53776170928066371890000000, p 54455883741720653710000000, p 55132482752872052910000000, p 55805951173217759050000000,
  p 56476272341996959500000000, p 57143429726293229480000000, p 57807406921333300000000000, p 58468187650779282480000000,
  p 59125755767021427600000000, p 59780095251462446460000000, p 60431190214799146430000000, p 61079024897301818780000000,
  p 61723583669087402070000000, p 62364851030388329670000000, p 63002811611819281580000000, p 63637450174638732210000000,
  p 64268751611005661690000000, p 64896700944233623450000000, p 65521283329039697870000000, p 66142484051789615650000000,
  p 66760288530739342330000000, p 67374682316271167220000000, p 67985651091127460850000000, p 68593180670638964620000000,
  p 69197257002948833750000000, p 69797866169234432100000000, p 70394994383922840360000000, p 70988627994902908650000000,
  p 71578753483734020020000000, p 72165357465850038520000000, p 72748426690758080660000000, p 73327948042235857610000000,
  p 73903908538521995150000000, p 74476295332504244270000000, p 75045095711901932400000000, p 75610297099446638350000000,
  p 76171887053055012400000000, p 76729853266001568630000000, p 77284183567084996370000000, p 77834865920789808590000000,
  p 78381888427445589600000000, p 78925239323381593540000000, p 79464906981075666970000000, p 80000879909301672590000000,
  p 80533146753270251630000000, p 81061696294766907860000000, p 81586517452285664540000000, p 82107599281158322180000000,
  p 82624930973679566740000000, p 83138501859228372550000000, p 83648301404384964310000000, p 84154319213042852450000000,
  p 84656545026518481570000000, p 85154968723655286020000000, p 85649580320923957010000000, p 86140369972518643360000000,
  p 86627327970449127800000000, p 87110444744629159100000000, p 87589710862958983230000000, p 88065117031406736640000000,
  p 88536654094082123390000000, p 89004313033309509500000000, p 89468084969693384420000000, p 89927961162183100980000000,
  p 90383933008130620810000000, p 90835992043345914480000000, p 91284129942147879120000000, p 91728338517410384910000000,
  p 92168609720604366410000000, p 92604935641837651810000000, p 93037308509887978180000000, p 93465720692232953650000000,
  p 93890164695076938630000000, p 94310633163372528660000000, p 94727118880837332670000000, p 95139614769970293210000000,
  p 95548113892058209040000000, p 95952609447182771190000000, p 96353094774222186600000000, p 96749563350848263870000000,
  p 97142008793518447310000000, p 97530424857467032380000000, p 97914805436688859270000000, p 98295144563920522350000000,
  p 98671436410617818780000000, p 99043675286927632120000000, p 99411855641657997930000000, p 99775972062241882750000000,
  p 100136019274698326300000000, p 100491992143589559100000000, p 100843885671972416400000000, p 101191695001348530600000000,
  p 101535415411607335400000000, p 101875042320968320400000000, p 102210571285915791100000000, p 102541998001132908500000000,
  p 102869318299429302100000000, p 103192528151666254600000000, p 103511623666676780300000000, p 103826601091182413300000000,
  p 104137456809705666900000000, p 104444187344479147400000000, p 104746789355349229100000000, p 105045259639677812700000000,
  p 105339595132238186800000000, p 105629792905108599300000000, p 105915850167560290900000000, p 106197764265943656000000000,
  p 106475532683567727900000000, p 106749153040577901600000000, p 107018623093829951000000000, p 107283940736757912900000000,
  p 107545103999240304600000000, p 107802111047461401900000000, p 108054960183769199800000000, p 108303649846528085600000000,
  p 108548178609969958600000000, p 108788545184039603400000000, p 109024748414237163100000000, p 109256787281455908200000000,
  p 109484660901817493200000000, p 109708368526502120200000000, p 109927909541575635800000000, p 110143283467812727600000000,
  p 110354489960515583800000000, p 110561528809330303400000000, p 110764399938057728200000000, p 110963103404461999000000000,
  p 111157639400074295700000000, p 111348008249993829500000000, p 111534210412683826300000000, p 111716246479765510300000000,
  p 111894117175805607500000000, p 112067823358104043400000000, p 112237366016474146600000000, p 112402746273021658700000000,
  p 112563965381918845700000000, p 112721024729175306500000000, p 112873925832405130900000000, p 113022670340590686300000000,
  p 113167260033841962600000000, p 113307696823153170000000000, p 113443982750155048000000000, p 113576119986864426700000000,
  p 113704110835428640100000000, p 113827957727869050200000000, p 113947663225816703300000000, p 114063230020250164200000000,
  p 114174660931223498400000000, p 114281958907596500900000000, p 114385127026756905400000000, p 114484168494342397600000000,
  p 114579086643956301600000000, p 114669884936882390800000000, p 114756566961794037600000000, p 114839136434460836700000000,
  p 114917597197453494300000000, p 114991953219840181700000000, p 115062208596886220200000000, p 115128367549745036500000000,
  p 115190434425148424700000000, p 115248413695091381200000000, p 115302309956516538200000000, p 115352127930992740000000000,
  p 115397872464390205400000000, p 115439548526554081100000000, p 115477161210973594500000000, p 115510715734448127200000000,
  p 115540217436749276200000000, p 115565671780280279600000000, p 115587084349733262800000000, p 115604460851740864500000000,
  p 115617807114526183200000000, p 115627129087549226900000000, p 115632432841149823700000000, p 115633724566187562300000000,
  p 115631010573679624000000000, p 115624297294431813100000000, p 115613591278671740100000000, p 115598899195673968100000000,
  p 115580227833385645900000000, p 115557584098046006700000000, p 115530975013805409200000000, p 115500407722339645800000000,
  p 115465889482460934400000000, p 115427427669728383000000000, p 115385029776051320500000000, p 115338703409293488700000000,
  p 115288456292871710500000000, p 115234296265352809100000000, p 115176231280046545400000000, p 115114269404596805700000000,
  p 115048418820568945600000000, p 114978687823033914900000000, p 114905084820151215400000000, p 114827618332746198000000000,
  p 114746296993886595600000000, p 114661129548456045000000000, p 114572124852722945200000000, p 114479291873909150300000000,
  p 114382639689753234900000000, p 114282177488073150000000000, p 114177914566323701600000000, p 114069860331154349100000000,
  p 113958024297960688900000000, p 113842416090435716300000000, p 113723045440118214500000000, p 113599922185936758100000000,
  p 113473056273752370700000000, p 113342457755898101700000000, p 113208136790716382100000000, p 113070103642092995000000000,
  p 112928368678988519400000000, p 112782942374967568000000000, p 112633835307725235800000000, p 112481058158611257900000000,
  p 112324621712150643500000000, p 112164536855562310700000000, p 112000814578276430800000000, p 111833465971446166500000000,
  p 111662502227460463900000000, p 111487934639451877200000000, p 111309774600802824400000000, p 111128033604649414900000000,
  p 110942723243382529400000000, p 110753855208147122800000000, p 110561441288337725100000000, p 110365493371093609200000000,
  p 110166023440789864800000000, p 109963043578526986600000000, p 109756565961617119600000000, p 109546602863070233200000000,
  p 109333166651074925600000000, p 109116269788479991500000000, p 108895924832271021000000000, p 108672144433046555200000000,
  p 108444941334492006600000000, p 108214328372849680200000000, p 107980318476388906200000000, p 107742924664872077900000000,
  p 107502160049019648800000000, p 107258037829972521800000000, p 107010571298753118200000000, p 106759773835722438000000000,
  p 106505658910037631600000000, p 106248240079105077400000000, p 105987530988033609700000000, p 105723545369083363200000000,
  p 105456297041115171200000000, p 105185799909035787600000000, p 104912067963242691700000000, p 104635115279065715700000000,
  p 104354956016207936500000000, p 104071604418183000200000000, p 103785074811753363900000000, p 103495381606363068300000000,
  p 103202539293571510200000000, p 102906562446484412000000000, p 102607465719182069900000000, p 102305263846148075700000000,
  p 101999971641693096300000000, p 101691603999380680800000000, p 101380175891447058000000000, p 101065702368223223100000000,
  p 100748198557552987000000000, p 100427679664209373900000000, p 100104160969310546100000000, p 99777657829733620850000000,
  p 99448185677525571810000000, p 99115760019314796960000000, p 98780396435719605710000000, p 98442110580754471630000000,
  p 98100918181237783950000000, p 97756835036193825970000000, p 97409877016256959940000000, p 97060060063072231550000000,
  p 96707400188695183400000000, p 96351913474990044660000000, p 95993616073026047380000000, p 95632524202474603060000000,
  p 95268654151001289090000000, p 94902022273659625280000000, p 94532644992282338640000000, p 94160538794871101450000000,
  p 93785720234984909500000000, p 93408205931129070780000000, p 93028012566138795770000000, p 92645156886566076840000000,
  p 92259655702063042560000000, p 91871525884763605150000000, p 91480784368665107880000000, p 91087448149008876100000000,
  p 90691534281658423010000000, p 90293059882477919030000000, p 89892042126708204820000000, p 89488498248343123500000000,
  p 89082445539503396500000000, p 88673901349810416160000000, p 88262883085759094580000000, p 87849408210088214540000000,
  p 87433494241152168170000000, p 87015158752289809010000000, p 86594419371192860040000000, p 86171293779273863690000000,
  p 85745799711032508190000000, p 85317954953422384110000000, p 84887777345214368570000000, p 84455284776362368750000000,
  p 84020495187365581980000000, p 83583426568631047360000000, p 83144096959835822600000000, p 82702524449287426190000000,
  p 82258727173284265640000000, p 81812723315475219250000000, p 81364531106217885540000000, p 80914168821937151880000000,
  p 80461654784482125600000000, p 80007007360483453630000000, p 79550244960708837990000000, p 79091386039418884460000000,
  p 78630449093722229460000000, p 78167452662929459710000000, p 77702415327906976250000000, p 77235355710431025100000000,
  p 76766292472539632290000000, p 76295244315884955260000000, p 75822229981086106120000000, p 75347268247079282610000000,
  p 74870377930469772520000000, p 74391577884881904260000000, p 73910887000309968830000000, p 73428324202466657700000000,
  p 72943908452134637030000000, p 72457658744514000240000000, p 71969594108571829930000000]

/-- src/mid_qual_coeffs.h:1502-1992 -/
def row3 : List ℤ := [
  p 71479733606390941090000000, p 70988096332518083040000000, p 70494701413311725010000000, p 69999568006290743830000000,
  p 69502715299481029890000000, p 69004162510763952800000000, p 68503928887223577980000000, p 68002033704493092260000000,
  p 67498496266102908650000000, p 66993335902827300110000000, p 66486571972030769630000000, p 65978223857015849680000000,
  p 65468310966369430700000000, p 64956852733309339290000000, p 64443868615031832390000000, p 63929378092057773110000000,
  p 63413400667579555850000000, p 62895955866808905820000000, p 62377063236322465020000000, p 61856742343410299480000000,
  p 61335012775422012580000000, p 60811894139115182930000000, p 60287406060001803850000000, p 59761568181697158340000000,
  p 59234400165266827550000000, p 58705921688574913550000000, p 58176152445633497190000000, p 57645112145949667370000000,
  p 57112820513875638130000000, p 56579297287957845690000000, p 56044562220285851220000000, p 55508635075842749360000000,
  p 54971535631855833470000000, p 54433283677146081240000000, p 53893899011479916290000000, p 53353401444921101650000000,
  p 52811810797181620030000000, p 52269146896974288950000000, p 51725429581366541560000000, p 51180678695132403310000000,
  p 50634914090106931950000000, p 50088155624540914300000000, p 49540423162454938490000000, p 48991736572995527030000000,
  p 48442115729791596080000000, p 47891580510309679500000000, p 47340150795213108150000000, p 46787846467718524620000000,
  p 46234687412955201290000000, p 45680693517324504060000000, p 45125884667859550440000000, p 44570280751585894530000000,
  p 44013901654883828830000000, p 43456767262849728410000000, p 42898897458659275560000000, p 42340312122932349800000000,
  p 41781031133096328820000000, p 41221074362751984610000000, p 40660461681040926950000000, p 40099212952011319130000000,
  p 39537348033987285150000000, p 38974886778936859710000000, p 38411849031843275930000000, p 37848254630074539000000000,
  p 37284123402756753910000000, p 36719475170145933480000000, p 36154329743002235060000000, p 35588706921965619630000000,
  p 35022626496930393810000000, p 34456108246423672310000000, p 33889171936982973030000000, p 33321837322535144410000000,
  p 32754124143777013640000000, p 32186052127557249200000000, p 31617640986258153950000000, p 31048910417179900740000000,
  p 30479880101926037920000000, p 29910569705788460360000000, p 29340998877136311580000000, p 28771187246803307110000000,
  p 28201154427478603710000000, p 27630920013097318160000000, p 27060503578233766060000000, p 26489924677494440520000000,
  p 25919202844913512980000000, p 25348357593349867680000000, p 24777408413883626050000000, p 24206374775217049530000000,
  p 23635276123073617470000000, p 23064131879600706380000000, p 22492961442773691530000000, p 21921784185799653160000000,
  p 21350619456524385500000000, p 20779486576840755510000000, p 20208404842097058010000000, p 19637393520508344270000000,
  p 19066471852569502610000000, p 18495659050468044040000000, p 17924974297500281120000000, p 17354436747488870270000000,
  p 16784065524200350580000000, p 16213879720766780080000000, p 15643898399107063200000000, p 15074140589350302700000000,
  p 14504625289261406650000000, p 13935371463668598520000000, p 13366398043891024320000000, p 12797723927169600210000000,
  p 12229367976099827370000000, p 11661349018064363910000000, p 11093685844669343850000000, p 10526397211182201770000000,
  p 9959501835969834099000000, p 9393018399940177704000000, p 8826965545985472963000000, p 8261361878425896310000000,
  p 7696225962456655287000000, p 7131576323596798377000000, p 6567431447138396931000000, p 6003809777599971101000000,
  p 5440729718179292129000000, p 4878209630210759117000000, p 4316267832621930103000000, p 3754922601394939871000000,
  p 3194192169027075100000000, p 2634094723995269137000000, p 2074648410222489341000000, p 1515871326544439724000000,
  p 957781526180908411800000, p 400397016206561790400000, m 156264242974472525700000, m 712184338151962198100000,
  m 1267345403832345185000000, m 1821729622757877181000000, m 2375319226423679153000000, m 2928096495594133264000000,
  m 3480043760815640895000000, m 4031143402927247175000000, m 4581377853570486186000000, m 5130729595695702507000000,
  m 5679181164066179205000000, m 6226715145760802587000000, m 6773314180674660893000000, m 7318960962015670473000000,
  m 7863638236801374568000000, m 8407328806351688916000000, m 8950015526779514508000000, m 9491681309480425738000000,
  m 10032309121618582930000000, m 10571881986610293450000000, m 11110382984606925750000000, m 11647795252973623670000000,
  m 12184101986766081300000000, m 12719286439206065400000000, m 13253331922153287900000000, m 13786221806574794350000000,
  m 14317939523013507520000000, m 14848468562052704810000000, m 15377792474778249200000000, m 15905894873239907750000000,
  m 16432759430907786790000000, m 16958369883128855680000000, m 17482710027578507450000000, m 18005763724712166300000000,
  m 18527514898211604190000000, m 19047947535431583590000000, m 19567045687841899680000000, m 20084793471467337480000000,
  m 20601175067326182170000000, m 21116174721864350990000000, m 21629776747388650830000000, m 22141965522496621920000000,
  m 22652725492503047320000000, m 23162041169866105090000000, m 23669897134608430810000000, m 24176278034736643080000000,
  m 24681168586658933100000000, m 25184553575598806610000000, m 25686417856006189130000000, m 26186746351967351430000000,
  m 26685524057610345710000000, m 27182736037508762470000000, m 27678367427082361390000000, m 28172403432995696960000000,
  m 28664829333552917230000000, m 29155630479090900720000000, m 29644792292369121640000000, m 30132300268956278140000000,
  m 30618139977615636830000000, m 31102297060686141110000000, m 31584757234461031950000000, m 32065506289564893460000000,
  m 32544530091326157040000000, m 33021814580147738900000000, m 33497345771875158830000000, m 33971109758161158190000000,
  m 34443092706827473090000000, m 34913280862224602140000000, m 35381660545588104750000000, m 35848218155391381460000000,
  m 36312940167697732590000000, m 36775813136506511900000000, m 37236823694099828450000000, m 37695958551382663380000000,
  m 38153204498223874940000000, m 38608548403790854400000000, m 39061977216884098680000000, m 39513477966267016030000000,
  m 39963037760993185000000000, m 40410643790731691490000000, m 40856283326087865230000000, m 41299943718922732530000000,
  m 41741612402668458460000000, m 42181276892640638680000000, m 42618924786349043910000000, m 43054543763803694580000000,
  m 43488121587818867610000000, m 43919646104314112590000000, m 44349105242612402170000000, m 44776487015734139920000000,
  m 45201779520689808200000000, m 45624970938768445730000000, m 46046049535823779800000000, m 46465003662556479680000000,
  m 46881821754794855690000000, m 47296492333770423500000000, m 47709004006392802260000000, m 48119345465519547390000000,
  m 48527505490223943330000000, m 48933472946059666800000000, m 49337236785322591270000000, m 49738786047308143620000000,
  m 50138109858568008500000000, m 50535197433161406500000000, m 50930038072904457170000000, m 51322621167616815090000000,
  m 51712936195364038460000000, m 52100972722697529160000000, m 52486720404891940020000000, m 52870168986178113500000000,
  m 53251308299974063620000000, m 53630128269112703480000000, m 54006618906065312350000000, m 54380770313163906420000000,
  m 54752572682818169410000000, m 55122016297731571410000000, m 55489091531112456900000000, m 55853788846882773680000000,
  m 56216098799883977570000000, m 56576012036079127710000000, m 56933519292752657330000000, m 57288611398705439890000000,
  m 57641279274449029600000000, m 57991513932394662960000000, m 58339306477040123180000000, m 58684648105153280890000000,
  m 59027530105952102920000000, m 59367943861282079790000000, m 59705880845790412770000000, m 60041332627096467840000000,
  m 60374290865959176490000000, m 60704747316442334020000000, m 61032693826074971290000000, m 61358122336010074980000000,
  m 61681024881178839190000000, m 62001393590443390490000000, m 62319220686744288000000000, m 62634498487246559330000000,
  m 62947219403481705080000000, m 63257375941486254640000000, m 63564960701938261200000000, m 63869966380289369680000000,
  m 64172385766894310400000000, m 64472211747137200820000000, m 64769437301554613760000000, m 65064055505955203930000000,
  m 65356059531536045410000000, m 65645442644997012430000000, m 65932198208649858700000000, m 66216319680525853600000000,
  m 66497800614479726790000000, m 66776634660289463370000000, m 67052815563755058250000000, m 67326337166791455640000000,
  m 67597193407520128620000000, m 67865378320356967160000000, m 68130886036096835470000000, m 68393710781994868090000000,
  m 68653846881845115300000000, m 68911288756054525640000000, m 69166030921716289970000000, m 69418067992677440210000000,
  m 69667394679604269240000000, m 69914005790045710700000000, m 70157896228490515540000000, m 70399060996425205650000000,
  m 70637495192385130190000000, m 70873194012005077960000000, m 71106152748064421760000000, m 71336366790531791080000000,
  m 71563831626603721660000000, m 71788542840741792480000000, m 72010496114706792900000000, m 72229687227588060260000000,
  m 72446112055832068140000000, m 72659766573264825130000000, m 72870646851114703750000000, m 73078749058028261150000000,
  m 73284069460086406770000000, m 73486604420814824470000000, m 73686350401192590720000000, m 73883303959657212200000000,
  m 74077461752106527060000000, m 74268820531897511430000000, m 74457377149842032820000000, m 74643128554199161820000000,
  m 74826071790664777650000000, m 75006204002357454440000000, m 75183522429801724620000000, m 75358024410908192040000000,
  m 75529707380950231180000000, m 75698568872537619350000000, m 75864606515587143520000000, m 76027818037290126330000000,
  m 76188201262076857280000000, m 76345754111577734950000000, m 76500474604581744640000000, m 76652360856991064160000000,
  m 76801411081772935630000000, m 76947623588909455640000000, m 77090996785342022490000000, m 77231529174915741760000000,
  m 77369219358317503630000000, m 77504066033012838920000000, m 77636067993180443710000000, m 77765224129641971620000000,
  m 77891533429788689660000000, m 78014994977507357010000000, m 78135607953100302820000000, m 78253371633204102390000000,
  m 78368285390705075270000000, m 78480348694651216880000000, m 78589561110160910400000000, m 78695922298330528430000000,
  m 78799432016136108920000000, m 78900090116334031800000000, m 78997896547358559260000000, m 79092851353215615220000000,
  m 79184954673373997290000000, m 79274206742653730020000000, m 79360607891111531460000000, m 79444158543922088760000000,
  m 79524859221259028290000000, m 79602710538169627050000000, m 79677713204449426840000000, m 79749868024512129970000000,
  m 79819175897257052530000000, m 79885637815934718020000000, m 79949254868007052500000000, m 80010028235007552010000000,
  m 80067959192396620520000000, m 80123049109414229420000000, m 80175299448931078290000000, m 80224711767294690220000000,
  m 80271287714174577310000000, m 80315029032403395530000000, m 80355937557815768080000000, m 80394015219083972410000000,
  m 80429264037551032040000000, m 80461686127060852440000000, m 80491283693785359300000000, m 80518059036049180470000000,
  m 80542014544151371850000000, m 80563152700184340050000000, m 80581476077849475970000000, m 80596987342271345090000000,
  m 80609689249807492390000000, m 80619584647856484820000000, m 80626676474663247500000000, m 80630967759120625300000000,
  m 80632461620569903520000000, m 80631161268596721060000000, m 80627070002825915180000000, m 80620191212712383200000000,
  m 80610528377329931930000000, m 80598085065157878960000000, m 80582864933863046500000000, m 80564871730081907830000000,
  m 80544109289197557410000000, m 80520581535115570700000000, m 80494292480036380710000000, m 80465246224225753240000000,
  m 80433446955781764950000000, m 80398898950399741440000000, m 80361606571135030250000000, m 80321574268161832770000000,
  m 80278806578530717550000000, m 80233308125923330500000000, m 80185083620403566070000000, m 80134137858167475700000000,
  m 80080475721290539370000000, m 80024102177470829430000000, m 79965022279771522110000000, m 79903241166360244870000000,
  m 79838764060245495660000000, m 79771596269011466050000000, m 79701743184549006530000000, m 79629210282785523050000000,
  m 79554003123412112000000000, m 79476127349607392230000000, m 79395588687760434990000000, m 79312392947188642410000000,
  m 79226546019857443940000000, m 79138053880092540380000000, m 79046922584294271320000000, m 78953158270646320300000000,
  m 78856767158824420120000000, m 78757755549700825260000000, m 78656129825047854660000000, m 78551896447238311880000000,
  m 78445061958943837490000000, m 78335632982830971650000000, m 78223616221254732570000000, m 78109018455950293690000000,
  m 77991846547722509800000000, m 77872107436132043110000000, m 77749808139180517920000000, m 77624955752993066160000000,
  m 77497557451498486070000000, m 77367620486107194220000000, m 77235152185387304090000000, m 77100159954737679250000000,
  m 76962651276060514700000000, m 76822633707429574530000000, m 76680114882757985370000000, m 76535102511463309890000000,
  m 76387604378130524730000000, m 76237628342172139570000000, m 76085182337488135860000000, m 75930274372121825400000000,
  m 75772912527914584870000000, m 75613104960158744610000000, m 75450859897247465890000000, m 75286185640324410070000000,
  m 75119090562928744760000000, m 74949583110640566330000000, m 74777671800723519160000000, m 74603365221764389450000000,
  m 74426672033312824000000000, m 74247600965516913350000000, m 74066160818758747240000000, m 73882360463286764210000000,
  m 73696208838846380410000000, m 73507714954309355540000000, m 73316887887300841160000000, m 73123736783824569430000000,
  m 72928270857886140500000000, m 72730499391114505900000000, m 72530431732382188990000000, m 72328077297422618820000000,
  m 72123445568446520330000000, m 71916546093756084090000000, m 71707388487358025840000000, m 71495982428573898180000000,
  m 71282337661649194940000000, m 71066463995361359160000000, m 70848371302624738030000000, m 70628069520094385880000000,
  m 70405568647769797840000000, m 70180878748593494840000000, m 69954009948051412700000000, m 69724972433770057710000000,
  m 69493776455111871960000000, m 69260432322769141520000000, m 69024950408357391150000000, m 68787341144005503810000000,
  m 68547615021945298990000000, m 68305782594099875850000000, m 68061854471668972730000000, m 67815841324714548620000000,
  m 67567753881743797260000000, m 67317602929290842880000000, m 67065399311496978750000000, m 66811153929689892640000000,
  m 66554877741960782880000000, m 66296581762740419700000000, m 66036277062373513470000000, m 65773974766692444580000000,
  m 65509686056588259380000000, m 65243422167581957560000000, m 64975194389392643140000000]

/-- src/mid_qual_coeffs.h:1993-2483 -/
def row4 : List ℤ := [
  m 64705014065506161190000000, m 64432892592740681480000000, m 64158841420812157130000000, m 63882872051898867420000000,
  m 63604996040202352310000000, m 63325224991509915240000000, m 63043570562754461250000000, m 62760044461572919720000000,
  m 62474658445863973100000000, m 62187424323344682450000000, m 61898353951105405950000000, m 61607459235163829210000000,
  m 61314752130017920180000000, m 61020244638197856930000000, m 60723948809816241660000000, m 60425876742117815010000000,
  m 60126040579028171280000000, m 59824452510700260040000000, m 59521124773061803710000000, m 59216069647359585730000000,
  m 58909299459703773350000000, m 58600826580612344620000000, m 58290663424551164560000000, m 57978822449477038230000000,
  m 57665316156377134650000000, m 57350157088808459420000000, m 57033357832436244740000000, m 56714931014571354220000000,
  m 56394889303706986770000000, m 56073245409053902590000000, m 55750012080076273570000000, m 55425202106024286370000000,
  m 55098828315468008350000000, m 54770903575829962830000000, m 54441440792915719860000000, m 54110452910445555610000000,
  m 53777952909583516540000000, m 53443953808467427320000000, m 53108468661736268900000000, m 52771510560059194110000000,
  m 52433092629660997540000000, m 52093228031850145890000000, m 51751929962542589370000000, m 51409211651788015720000000,
  m 51065086363293654690000000, m 50719567393948138120000000, m 50372668073344180340000000, m 50024401763301550030000000,
  m 49674781857388466970000000, m 49323821780443373450000000, m 48971534988095657970000000, m 48617934966285254740000000,
  m 48263035230783173090000000, m 47906849326710465590000000, m 47549390828056446730000000, m 47190673337198091320000000,
  m 46830710484416365750000000, m 46469515927414981050000000, m 46107103350836300960000000, m 45743486465778755710000000,
  m 45378679009312201940000000, m 45012694743994198510000000, m 44645547457385602320000000, m 44277250961564977580000000,
  m 43907819092643976530000000, m 43537265710281616850000000, m 43165604697198350910000000, m 42792849958689913040000000,
  m 42419015422141458090000000, m 42044115036540138930000000, m 41668162771988689900000000, m 41291172619218732830000000,
  m 40913158589102952000000000, m 40534134712167609050000000, m 40154115038105654690000000, m 39773113635288299960000000,
  m 39391144590277461790000000, m 39008222007337833850000000, m 38624360007948409230000000, m 38239572730314572160000000,
  m 37853874328880231240000000, m 37467278973838745450000000, m 37079800850645293350000000, m 36691454159528194560000000,
  m 36302253115000432390000000, m 35912211945371745600000000, m 35521344892259859580000000, m 35129666210102487860000000,
  m 34737190165669264150000000, m 34343931037573147140000000, m 33949903115782574530000000, m 33555120701134096010000000,
  m 33159598104843521220000000, m 32763349648018927350000000, m 32366389661173375350000000, m 31968732483736564400000000,
  m 31570392463568817950000000, m 31171383956473341930000000, m 30771721325709995580000000, m 30371418941508073610000000,
  m 29970491180580958320000000, m 29568952425639387360000000, m 29166817064905967150000000, m 28764099491630102520000000,
  m 28360814103602288020000000, m 27956975302669488660000000, m 27552597494251294260000000, m 27147695086854856110000000,
  m 26742282491591790740000000, m 26336374121694913760000000, m 25929984392035001360000000, m 25523127718638110440000000,
  m 25115818518204460070000000, m 24708071207625536410000000, m 24299900203503810300000000, m 23891319921671812930000000,
  m 23482344776712092690000000, m 23072989181476970950000000, m 22663267546610334210000000, m 22253194280068215590000000,
  m 21842783786640951330000000, m 21432050467476263660000000, m 21021008719601348010000000, m 20609672935447753000000000,
  m 20198057502374536230000000, m 19786176802194056780000000, m 19374045210697510980000000, m 18961677097180659050000000,
  m 18549086823971074750000000, m 18136288745956258980000000, m 17723297210111163550000000, m 17310126555027439270000000,
  m 16896791110443988570000000, m 16483305196776418260000000, m 16069683124648917460000000, m 15655939194426485990000000,
  m 15242087695747308370000000, m 14828142907057051750000000, m 14414119095142617290000000, m 14000030514668426050000000,
  m 13585891407711568610000000, m 13171716003299855160000000, m 12757518516949018990000000, m 12343313150201755400000000,
  m 11929114090167957510000000, m 11514935509064532300000000, m 11100791563757518580000000, m 10686696395304857290000000,
  m 10272664128499286660000000, m 9858708871413103883000000, m 9444844714944151606000000, m 9031085732361488622000000,
  m 8617445978853281036000000, m 8203939491075741205000000, m 7790580286701910551000000, m 7377382363973220523000000,
  m 6964359701250321527000000, m 6551526256566859996000000, m 6138895967182455768000000, m 5726482749138683132000000,
  m 5314300496814470740000000, m 4902363082483721102000000, m 4490684355874207702000000, m 4079278143726318591000000,
  m 3668158249354945468000000, m 3257338452210606448000000, m 2846832507443070731000000, m 2436654145466198886000000,
  m 2026817071522901085000000, m 1617334965252489052000000, m 1208221480259231680000000, m 799490243681128367000000,
  m 391154855761052951600000, p 16771110580779260230000, p 424274110174162907900000, p 831340626023800472100000,
  p 1237957169732863214000000, p 1644110281926440586000000, p 2049786532671881486000000, p 2454972521898892736000000,
  p 2859654879818813826000000, p 3263820267340243435000000, p 3667455376485580579000000, p 4070546930804781749000000,
  p 4473081685789086388000000, p 4875046429280869599000000, p 5276427981884174861000000, p 5677213197373867648000000,
  p 6077388963101055044000000, p 6476942200399119463000000, p 6875859864988406213000000, p 7274128947377056509000000,
  p 7671736473262571673000000, p 8068669503931742357000000, p 8464915136656972136000000, p 8860460505093223013000000,
  p 9255292779672637249000000, p 9649399167997339474000000, p 10042766915230339280000000, p 10435383304486133690000000,
  p 10827235657217869690000000, p 11218311333604588310000000, p 11608597732935788460000000, p 11998082293994188560000000,
  p 12386752495437438480000000, p 12774595856178683210000000, p 13161599935763330930000000, p 13547752334745987580000000,
  p 13933040695066008920000000, p 14317452700419022740000000, p 14700976076628628070000000, p 15083598592016909600000000,
  p 15465308057770433060000000, p 15846092328307102850000000, p 16225939301640894540000000, p 16604836919742786690000000,
  p 16982773168902298020000000, p 17359736080086295850000000, p 17735713729295346510000000, p 18110694237919292000000000,
  p 18484665773090516030000000, p 18857616548034892430000000, p 19229534822421515820000000, p 19600408902711304730000000,
  p 19970227142501260910000000, p 20338977942869037460000000, p 20706649752715879790000000, p 21073231069105028550000000,
  p 21438710437600920490000000, p 21803076452605957280000000, p 22166317757693287940000000, p 22528423045940312860000000,
  p 22889381060259332560000000, p 23249180593724806660000000, p 23607810489900758750000000, p 23965259643165287560000000,
  p 24321516999032656570000000, p 24676571554473725190000000, p 25030412358235235030000000, p 25383028511155186070000000,
  p 25734409166478136590000000, p 26084543530167408200000000, p 26433420861215216340000000, p 26781030471950840330000000,
  p 27127361728348078910000000, p 27472404050327838000000000, p 27816146912060989160000000, p 28158579842268938180000000,
  p 28499692424520529920000000, p 28839474297528276680000000, p 29177915155443000930000000, p 29515004748143752740000000,
  p 29850732881528441870000000, p 30185089417801472260000000, p 30518064275757861990000000, p 30849647431067033640000000,
  p 31179828916553829070000000, p 31508598822476995010000000, p 31835947296805715280000000, p 32161864545494460440000000,
  p 32486340832754458110000000, p 32809366481324556130000000, p 33130931872739050050000000, p 33451027447592346360000000,
  p 33769643705803424620000000, p 34086771206876656510000000, p 34402400570161147110000000, p 34716522475106884050000000,
  p 35029127661519422750000000, p 35340206929813128280000000, p 35649751141259768130000000, p 35957751218237118950000000,
  p 36264198144474769910000000, p 36569082965296463570000000, p 36872396787861749790000000, p 37174130781404954300000000,
  p 37474276177470677850000000, p 37772824270148497310000000, p 38069766416304919030000000, p 38365094035812841170000000,
  p 38658798611778358300000000, p 38950871690766289410000000, p 39241304883022312680000000, p 39530089862693108820000000,
  p 39817218368045470540000000, p 40102682201680124600000000, p 40386473230746039450000000, p 40668583387152047740000000,
  p 40949004667773528100000000, p 41227729134660162650000000, p 41504748915239635110000000, p 41780056202518275900000000,
  p 42053643255280909190000000, p 42325502398287875860000000, p 42595626022468531520000000, p 42864006585113724470000000,
  p 43130636610065824220000000, p 43395508687905232080000000, p 43658615476135413660000000, p 43919949699365870570000000,
  p 44179504149491531650000000, p 44437271685870499690000000, p 44693245235499876040000000, p 44947417793187567640000000,
  p 45199782421723538880000000, p 45450332252047642710000000, p 45699060483414599700000000, p 45945960383557735150000000,
  p 46191025288849968390000000, p 46434248604460985620000000, p 46675623804513850790000000, p 46915144432238702070000000,
  p 47152804100122902580000000, p 47388596490059789470000000, p 47622515353495417640000000, p 47854554511571244240000000,
  p 48084707855265702850000000, p 48312969345533175740000000, p 48539333013439926730000000, p 48763792960297584760000000,
  p 48986343357795454620000000, p 49206978448128262100000000, p 49425692544123205060000000, p 49642480029364166590000000,
  p 49857335358312410150000000, p 50070253056425782780000000, p 50281227720275961660000000, p 50490254017661544140000000,
  p 50697326687719888870000000, p 50902440541037131950000000, p 51105590459753102990000000, p 51306771397666754710000000,
  p 51505978380337665010000000, p 51703206505184590160000000, p 51898450941582748020000000, p 52091706930957819290000000,
  p 52282969786877825370000000, p 52472234895141731110000000, p 52659497713866992850000000, p 52844753773573241440000000,
  p 53027998677264515100000000, p 53209228100508161600000000, p 53388437791511700330000000, p 53565623571197165660000000,
  p 53740781333272778790000000, p 53913907044302697420000000, p 54084996743773233740000000, p 54254046544157441550000000,
  p 54421052630977267970000000, p 54586011262862312030000000, p 54748918771606980280000000, p 54909771562225130610000000,
  p 55068566113001621300000000, p 55225298975541264880000000, p 55379966774816859200000000, p 55532566209212631810000000,
  p 55683094050566504800000000, p 55831547144209410500000000, p 55977922409002733860000000, p 56122216837371938230000000,
  p 56264427495339087990000000, p 56404551522552463790000000, p 56542586132313235600000000, p 56678528611600088870000000,
  p 56812376321091422050000000, p 56944126695184817120000000, p 57073777242014206430000000, p 57201325543464340280000000,
  p 57326769255183020190000000, p 57450106106591292130000000, p 57571333900889594400000000, p 57690450515063364250000000,
  p 57807453899885258290000000, p 57922342079914597430000000, p 58035113153494750910000000, p 58145765292748931300000000,
  p 58254296743570979640000000, p 58360705825616879250000000, p 58464990932291738270000000, p 58567150530734600480000000,
  p 58667183161801389480000000, p 58765087440045347960000000, p 58860862053694285030000000, p 58954505764626130570000000,
  p 59046017408341935910000000, p 59135395893936133770000000, p 59222640204064792850000000, p 59307749394911006560000000,
  p 59390722596148061430000000, p 59471559010900287840000000, p 59550257915701627910000000, p 59626818660451011420000000,
  p 59701240668366302440000000, p 59773523435935463350000000, p 59843666532865068260000000, p 59911669602026373930000000,
  p 59977532359399822470000000, p 60041254594016470190000000, p 60102836167896321610000000, p 60162277015986288800000000,
  p 60219577146093793140000000, p 60274736638818986190000000, p 60327755647484479500000000, p 60378634398062500100000000,
  p 60427373189099790880000000, p 60473972391640512520000000, p 60518432449145870280000000, p 60560753877412255850000000,
  p 60600937264487043930000000, p 60638983270581529870000000, p 60674892627981806550000000, p 60708666140956810130000000,
  p 60740304685665727490000000, p 60769809210060567180000000, p 60797180733788709630000000, p 60822420348091363330000000,
  p 60845529215701556200000000, p 60866508570737519470000000, p 60885359718596390730000000, p 60902084035843150060000000,
  p 60916682970099118870000000, p 60929158039927641680000000, p 60939510834716791030000000, p 60947743014560594450000000,
  p 60953856310138179730000000, p 60957852522589520140000000, p 60959733523390402520000000, p 60959501254224460200000000,
  p 60957157726852166660000000, p 60952705022979093710000000, p 60946145294121428780000000, p 60937480761468550140000000,
  p 60926713715743777140000000, p 60913846517064371140000000, p 60898881594796727690000000, p 60881821447411124670000000,
  p 60862668642334125100000000, p 60841425815798447220000000, p 60818095672690766770000000, p 60792680986397534810000000,
  p 60765184598648026850000000, p 60735609419356288710000000, p 60703958426460306870000000, p 60670234665758521200000000,
  p 60634441250745435560000000, p 60596581362444411340000000, p 60556658249237976800000000, p 60514675226696942880000000,
  p 60470635677406847640000000, p 60424543050792339780000000, p 60376400862939424980000000, p 60326212696416171840000000,
  p 60273982200090760190000000, p 60219713088947496300000000, p 60163409143901315500000000, p 60105074211609606230000000,
  p 60044712204282493780000000, p 59982327099490785620000000, p 59917922939972022290000000, p 59851503833434460680000000,
  p 59783073952359128130000000, p 59712637533800148880000000, p 59640198879182156070000000, p 59565762354097058500000000,
  p 59489332388097747320000000, p 59410913474490234520000000, p 59330510170124278750000000, p 59248127095180937170000000,
  p 59163768932959867610000000, p 59077440429662682330000000, p 58989146394176184000000000, p 58898891697852735760000000,
  p 58806681274288695460000000, p 58712520119102155900000000, p 58616413289706362220000000, p 58518365905083996600000000,
  p 58418383145558132330000000, p 58316470252561203310000000, p 58212632528402752370000000, p 58106875336035056220000000,
  p 57999204098817258580000000, p 57889624300276887330000000, p 57778141483870545940000000, p 57664761252742037510000000,
  p 57549489269479073280000000, p 57432331255868399040000000, p 57313292992648631750000000, p 57192380319261590380000000,
  p 57069599133602343100000000, p 56944955391766416410000000, p 56818455107796130010000000]

/-- src/mid_qual_coeffs.h:2484-2974 -/
def row5 : List ℤ := [
  p 56690104353425627150000000, p 56559909257822879590000000, p 56427876007330644850000000, p 56294010845206694790000000,
  p 56158320071360595670000000, p 56020810042089592970000000, p 55881487169813982840000000, p 55740357922808785040000000,
  p 55597428824935193890000000, p 55452706455369905890000000, p 55306197448333024870000000, p 55157908492814482220000000,
  p 55007846332297730130000000, p 54856017764484253650000000, p 54702429641013357310000000, p 54547088867183519960000000,
  p 54390002401669870770000000, p 54231177256241137890000000, p 54070620495474966400000000, p 53908339236471640440000000,
  p 53744340648566688020000000, p 53578631953040779800000000, p 53411220422829676360000000, p 53242113382232093830000000,
  p 53071318206615161750000000, p 52898842322120193100000000, p 52724693205365762150000000, p 52548878383149158490000000,
  p 52371405432147889740000000, p 52192281978618304540000000, p 52011515698093160890000000, p 51829114315078229910000000,
  p 51645085602747345390000000, p 51459437382635898890000000, p 51272177524333065190000000, p 51083313945172882650000000,
  p 50892854609923501850000000, p 50700807530475879010000000, p 50507180765530582110000000, p 50311982420282827520000000,
  p 50115220646108279980000000, p 49916903640244800200000000, p 49717039645474601920000000, p 49515636949805555410000000,
  p 49312703886149666930000000, p 49108248832001558100000000, p 48902280209115474300000000, p 48694806483180988480000000,
  p 48485836163496907890000000, p 48275377802645673410000000, p 48063439996164580850000000, p 47850031382217564360000000,
  p 47635160641264363830000000, p 47418836495729629890000000, p 47201067709670287140000000, p 46981863088442842040000000,
  p 46761231478367575040000000, p 46539181766393759860000000, p 46315722879762454000000000, p 46090863785669337890000000,
  p 45864613490924827090000000, p 45636981041614975430000000, p 45407975522760726790000000, p 45177606057975001900000000,
  p 44945881809120805110000000, p 44712811975966965110000000, p 44478405795842800020000000, p 44242672543293060090000000,
  p 44005621529730858110000000, p 43767262103089295270000000, p 43527603647473760150000000, p 43286655582812000320000000,
  p 43044427364503187740000000, p 42800928483067525450000000, p 42556168463793266070000000, p 42310156866383639980000000,
  p 42062903284603235520000000, p 41814417345923261820000000, p 41564708711165451740000000, p 41313787074146283980000000,
  p 41061662161319345540000000, p 40808343731417284770000000, p 40553841575093188540000000, p 40298165514561494480000000,
  p 40041325403236363580000000, p 39783331125372356500000000, p 39524192595701557180000000, p 39263919759071119750000000,
  p 39002522590080711260000000, p 38740011092718372450000000, p 38476395299995712340000000, p 38211685273583116670000000,
  p 37945891103443707420000000, p 37679022907466927510000000, p 37411090831101424800000000, p 37142105046987672350000000,
  p 36872075754589075940000000, p 36601013179823282950000000, p 36328927574693227480000000, p 36055829216916732150000000,
  p 35781728409555318970000000, p 35506635480644505030000000, p 35230560782821225550000000, p 34953514692951603850000000,
  p 34675507611758984990000000, p 34396549963450637200000000, p 34116652195343558080000000, p 33835824777491370350000000,
  p 33554078202309677030000000, p 33271422984200139940000000, p 32987869659176764780000000, p 32703428784489153860000000,
  p 32418110938246265380000000, p 32131926719040984630000000, p 31844886745572009710000000, p 31557001656267298640000000,
  p 31268282108906787780000000, p 30978738780244097220000000, p 30688382365627844130000000, p 30397223578624565920000000,
  p 30105273150638725550000000, p 29812541830533816760000000, p 29519040384253566330000000, p 29224779594442282930000000,
  p 28929770260064303910000000, p 28634023196024743080000000, p 28337549232789457920000000, p 28040359216003337560000000,
  p 27742464006111192810000000, p 27443874477976071960000000, p 27144601520498461140000000, p 26844656036235127470000000,
  p 26544048941018416610000000, p 26242791163573957890000000, p 25940893645140052080000000, p 25638367339085654100000000,
  p 25335223210528723390000000, p 25031472235954786020000000, p 24727125402835229560000000, p 24422193709244494760000000,
  p 24116688163479726990000000, p 23810619783678085850000000, p 23503999597434391270000000, p 23196838641420386430000000,
  p 22889147961002404700000000, p 22580938609858765970000000, p 22272221649599324020000000, p 21963008149383289600000000,
  p 21653309185536630250000000, p 21343135841172124200000000, p 21032499205806763630000000, p 20721410374980760850000000,
  p 20409880449876186690000000, p 20097920536936170890000000, p 19785541747483498950000000, p 19472755197340287790000000,
  p 19159572006447210530000000, p 18846003298482495720000000, p 18532060200482605720000000, p 18217753842461825720000000,
  p 17903095357031873630000000, p 17588095879023362550000000, p 17272766545105955330000000, p 16957118493408734200000000,
  p 16641162863142454350000000, p 16324910794220649090000000, p 16008373426880592730000000, p 15691561901306695650000000,
  p 15374487357252282490000000, p 15057160933662079930000000, p 14739593768295604710000000, p 14421796997350954180000000,
  p 14103781755087757210000000, p 13785559173452385450000000, p 13467140381701721290000000, p 13148536506028473190000000,
  p 12829758669186870980000000, p 12510817990118158070000000, p 12191725583577157560000000, p 11872492559758397730000000,
  p 11553130023924319120000000, p 11233649076032537970000000, p 10914060810363397650000000, p 10594376315149811600000000,
  p 10274606672206032520000000, p 9954762956556636663000000, p 9634856236068070276000000, p 9314897571078967903000000,
  p 8994898014030819344000000, p 8674868609101299421000000, p 8354820391836078122000000, p 8034764388781564029000000,
  p 7714711617119713802000000, p 7394673084301857206000000, p 7074659787683494454000000, p 6754682714160666068000000,
  p 6434752839805614986000000, p 6114881129504146084000000, p 5795078536593415049000000, p 5475356002500293175000000,
  p 5155724456379775535000000, p 4836194814755938320000000, p 4516777981161897854000000, p 4197484845780509455000000,
  p 3878326285087576025000000, p 3559313161494014922000000, p 3240456322988873126000000, p 2921766602784826514000000,
  p 2603254818962751505000000, p 2284931774117096841000000, p 1966808255003778955000000, p 1648895032187144708000000,
  p 1331202859688308468000000, p 1013742474634615233000000, p 696524596910100247100000, p 379559928805842095300000,
  p 62859154672541622750000, m 253567059426858840000000, m 569708066064130228000000, m 885553236789975292300000,
  m 1201091962479042697000000, m 1516313653674007103000000, m 1831207740926959170000000, m 2145763675141579112000000,
  m 2459970927914333604000000, m 2773818991872943965000000, m 3087297381015633238000000, m 3400395631049311831000000,
  m 3713103299725090383000000, m 4025409967174431447000000, m 4337305236244289389000000, m 4648778732829520269000000,
  m 4959820106206004262000000, m 5270419029362214194000000, m 5580565199328917959000000, m 5890248337509066540000000,
  m 6199458190005678430000000, m 6508184527948632919000000, m 6816417147820781619000000, m 7124145871783336623000000,
  m 7431360547998411108000000, m 7738051050952144544000000, m 8044207281776545940000000, m 8349819168568684696000000,
  m 8654876666710175498000000, m 8959369759185552978000000, m 9263288456897925474000000, m 9566622798984828271000000,
  m 9869362853133048161000000, m 10171498715890542330000000, m 10473020512978834310000000, m 10773918399603602330000000,
  m 11074182560763768880000000, m 11373803211559242380000000, m 11672770597498294610000000, m 11971074994802405330000000,
  m 12268706710710557130000000, m 12565656083782740860000000, m 12861913484200515610000000, m 13157469314067837470000000,
  m 13452314007709780670000000, m 13746438031970691430000000, m 14039831886509432720000000, m 14332486104094772920000000,
  m 14624391250899497830000000, m 14915537926791472970000000, m 15205916765624959140000000, m 15495518435530288710000000,
  m 15784333639201564290000000, m 16072353114182588020000000, m 16359567633153881960000000, m 16645968004214101860000000,
  m 16931545071164202240000000, m 17216289713787458900000000, m 17500192848129290240000000, m 17783245426774348110000000,
  m 18065438439124996420000000, m 18346762911673825810000000, m 18627209908279311610000000, m 18906770530436940720000000,
  m 19185435917550029690000000, m 19463197247198211340000000, m 19740045735406715890000000, m 20015972636910052410000000,
  m 20290969245418531700000000, m 20565026893880455900000000, m 20838136954743222140000000, m 21110290840214009780000000,
  m 21381480002517751220000000, m 21651695934154072120000000, m 21920930168151803170000000, m 22189174278324109300000000,
  m 22456419879518865760000000, m 22722658627870321450000000, m 22987882221047483550000000, m 23252082398501666000000000,
  m 23515250941711030030000000, m 23777379674426925290000000, m 24038460462913559260000000, m 24298485216190674610000000,
  m 24557445886271952320000000, m 24815334468402752010000000, m 25072143001295149610000000, m 25327863567363283900000000,
  m 25582488292955063440000000, m 25836009348583165860000000, m 26088418949154319750000000, m 26339709354196154390000000,
  m 26589872868083751220000000, m 26838901840263384990000000, m 27086788665474724470000000, m 27333525783971194400000000,
  m 27579105681740195140000000, m 27823520890718239640000000, m 28066763989008206710000000, m 28308827601092254040000000,
  m 28549704398044051250000000, m 28789387097738310120000000, m 29027868465060842340000000, m 29265141312113385210000000,
  m 29501198498419877600000000, m 29736032931129269960000000, m 29969637565216925710000000, m 30202005403683895860000000,
  m 30433129497755468520000000, m 30663002947076790220000000, m 30891618899907137550000000, m 31118970553312651910000000,
  m 31345051153356416620000000, m 31569853995287847080000000, m 31793372423729635010000000, m 32015599832862902400000000,
  m 32236529666610024000000000, m 32456155418817543570000000, m 32674470633434149480000000, m 32891468904690031320000000,
  m 33107143877272024460000000, m 33321489246498317560000000, m 33534498758490002830000000, m 33746166210342688760000000,
  m 33956485450294122960000000, m 34165450377891593000000000, m 34373054944155996550000000, m 34579293151746098860000000,
  m 34784159055118127330000000, m 34987646760686330620000000, m 35189750426979748980000000, m 35390464264797284740000000,
  m 35589782537362148200000000, m 35787699560473014430000000, m 35984209702653750800000000, m 36179307385301152920000000,
  m 36372987082832000660000000, m 36565243322825152770000000, m 36756070686165556730000000, m 36945463807183331890000000,
  m 37133417373792734770000000, m 37319926127627606190000000, m 37504984864177338950000000, m 37688588432917564940000000,
  m 37870731737442278610000000, m 38051409735591519570000000, m 38230617439578680470000000, m 38408349916114574440000000,
  m 38584602286531176350000000, m 38759369726901658770000000, m 38932647468159810310000000, m 39104430796216962940000000,
  m 39274715052076566990000000, m 39443495631947989020000000, m 39610767987356979010000000, m 39776527625255096720000000,
  m 39940770108126757990000000, m 40103491054095045940000000, m 40264686137023719680000000, m 40424351086619646210000000,
  m 40582481688531735210000000, m 40739073784448201490000000, m 40894123272191558460000000, m 41047626105813181390000000,
  m 41199578295683061960000000, m 41349975908580763330000000, m 41498815067781892610000000, m 41646091953144143140000000,
  m 41791802801190165720000000, m 41935943905189669580000000, m 42078511615238713140000000, m 42219502338337107360000000,
  m 42358912538464015000000000, m 42496738736651613890000000, m 42632977511056636970000000, m 42767625497029788940000000,
  m 42900679387183379700000000, m 43032135931457021760000000, m 43161991937181266870000000, m 43290244269138723750000000,
  m 43416889849624426550000000, m 43541925658502837750000000, m 43665348733263713300000000, m 43787156169075594490000000,
  m 43907345118837703970000000, m 44025912793229232680000000, m 44142856460757162740000000, m 44258173447801904540000000,
  m 44371861138661095050000000, m 44483916975590606650000000, m 44594338458845202140000000, m 44703123146715276200000000,
  m 44810268655562958410000000, m 44915772659855968120000000, m 45019632892198659100000000, m 45121847143362307790000000,
  m 45222413262312556590000000, m 45321329156235122540000000, m 45418592790559306200000000, m 45514202188980439070000000,
  m 45608155433478569930000000, m 45700450664336769720000000, m 45791086080157000770000000, m 45880059937873765570000000,
  m 45967370552765354770000000, m 46053016298464470590000000, m 46136995606965658380000000, m 46219306968630996520000000,
  m 46299948932193940590000000, m 46378920104761654770000000, m 46456219151814012740000000, m 46531844797202626120000000,
  m 46605795823145862440000000, m 46678071070223134400000000, m 46748669437366857650000000, m 46817589881852660070000000,
  m 46884831419287113790000000, m 46950393123593975320000000, m 47014274126998399640000000, m 47076473620008871260000000,
  m 47136990851397608800000000, m 47195825128178596490000000, m 47252975815584109810000000, m 47308442337038944530000000,
  m 47362224174132841470000000, m 47414320866590434210000000, m 47464732012240870570000000, m 47513457266982930820000000,
  m 47560496344750895210000000, m 47605849017476352390000000, m 47649515115049216610000000, m 47691494525276857670000000,
  m 47731787193840448380000000, m 47770393124250215560000000, m 47807312377797978040000000, m 47842545073509240570000000,
  m 47876091388091415730000000, m 47907951555881483910000000, m 47938125868791217620000000, m 47966614676251108360000000,
  m 47993418385150955760000000, m 48018537459780741280000000, m 48041972421767054070000000, m 48063723850010203750000000,
  m 48083792380617190740000000, m 48102178706834405890000000, m 48118883578977381110000000, m 48133907804359749030000000,
  m 48147252247218899620000000, m 48158917828641130410000000, m 48168905526484055710000000, m 48177216375297690630000000,
  m 48183851466243092510000000, m 48188811947009760340000000, m 48192099021731042710000000, m 48193713950897165700000000,
  m 48193658051266997920000000, m 48191932695778219590000000, m 48188539313454313570000000, m 48183479389311625880000000,
  m 48176754464263130130000000, m 48168366135020956880000000, m 48158316053997118900000000, m 48146605929202099250000000,
  m 48133237524142384600000000, m 48118212657714980180000000, m 48101533204101522280000000, m 48083201092659337560000000,
  m 48063218307811843290000000, m 48041586888936109460000000, m 48018308930249609110000000, m 47993386580694470670000000,
  m 47966822043820231400000000, m 47938617577664967280000000, m 47908775494634667220000000]

/-- src/mid_qual_coeffs.h:2975-3465 -/
def row6 : List ℤ := [
  m 47877298161380164860000000, m 47844187998673799730000000, m 47809447481282692230000000, m 47773079137841290010000000,
  m 47735085550721999270000000, m 47695469355904199230000000, m 47654233242840779440000000, m 47611379954324149770000000,
  m 47566912286349863350000000, m 47520833087978268940000000, m 47473145261195295870000000, m 47423851760770976970000000,
  m 47372955594116160360000000, m 47320459821138381730000000, m 47266367554094711190000000, m 47210681957444364240000000,
  m 47153406247698849420000000, m 47094543693270533860000000, m 47034097614319606010000000, m 46972071382599740740000000,
  m 46908468421301793840000000, m 46843292204895588260000000, m 46776546258971075930000000, m 46708234160076494980000000,
  m 46638359535556644930000000, m 46566926063387567570000000, m 46493937472011269420000000, m 46419397540168494400000000,
  m 46343310096729026240000000, m 46265679020521546790000000, m 46186508240161662510000000, m 46105801733877523060000000,
  m 46023563529335245750000000, m 45939797703461841830000000, m 45854508382266866150000000, m 45767699740662380610000000,
  m 45679376002282362500000000, m 45589541439298726650000000, m 45498200372237826430000000, m 45405357169794026420000000,
  m 45311016248642678460000000, m 45215182073251085350000000, m 45117859155688277980000000, m 45019052055433168850000000,
  m 44918765379181137260000000, m 44817003780650045700000000, m 44713771960382647790000000, m 44609074665550856040000000,
  m 44502916689755256390000000, m 44395302872825469220000000, m 44286238100617617010000000, m 44175727304812388570000000,
  m 44063775462708565380000000, m 43950387597018636400000000, m 43835568775660437020000000, m 43719324111548878150000000,
  m 43601658762385260560000000, m 43482577930446505990000000, m 43362086862371411470000000, m 43240190848947271380000000,
  m 43116895224894050130000000, m 42992205368647277990000000, m 42866126702140350260000000, m 42738664690584751700000000,
  m 42609824842249469090000000, m 42479612708238682910000000, m 42348033882268980300000000, m 42215094000443896540000000,
  m 42080798741028851980000000, m 41945153824223750660000000, m 41808165011934350640000000, m 41669838107542843400000000,
  m 41530178955677482520000000, m 41389193441979499340000000, m 41246887492870761010000000, m 41103267075318986050000000,
  m 40958338196601766500000000, m 40812106904070208360000000, m 40664579284910698510000000, m 40515761465905526790000000,
  m 40365659613192689250000000, m 40214279932024733780000000, m 40061628666525170290000000, m 39907712099445817600000000,
  m 39752536551921090200000000, m 39596108383222312910000000, m 39438433990510474160000000, m 39279519808588458930000000,
  m 39119372309650783660000000, m 38957998003034420560000000, m 38795403434966187210000000, m 38631595188311468330000000,
  m 38466579882319343330000000, m 38300364172369101570000000, m 38132954749714113860000000, m 37964358341225107330000000,
  m 37794581709132794860000000, m 37623631650769283340000000, m 37451514998307941510000000, m 37278238618503323210000000,
  m 37103809412429279710000000, m 36928234315216267040000000, m 36751520295788507600000000, m 36573674356598605270000000,
  m 36394703533362798840000000, m 36214614894794189270000000, m 36033415542336508230000000, m 35851112609894097980000000,
  m 35667713263565034580000000, m 35483224701369761590000000, m 35297654152980605100000000, m 35111008879450435190000000,
  m 34923296172940224150000000, m 34734523356444717280000000, m 34544697783519526250000000, m 34353826838005356580000000,
  m 34161917933752151970000000, m 33968978514342745840000000, m 33775016052815444450000000, m 33580038051385409370000000,
  m 33384052041165859780000000, m 33187065581888337830000000, m 32989086261622183050000000, m 32790121696493382260000000,
  m 32590179530402198230000000, m 32389267434740499910000000, m 32187393108108641740000000, m 31984564276031260400000000,
  m 31780788690671607500000000, m 31576074130547290840000000, m 31370428400243066670000000, m 31163859330124249470000000,
  m 30956374776049327270000000, m 30747982619081879600000000, m 30538690765200743330000000, m 30328507145012277570000000,
  m 30117439713458763610000000, m 29905496449528657520000000, m 29692685355964597990000000, m 29479014458972593870000000,
  m 29264491807928526280000000, m 29049125475085701980000000, m 28832923555281702450000000, m 28615894165643026430000000,
  m 28398045445292251220000000, m 28179385555051311710000000, m 27959922677146902690000000, m 27739665014913601760000000,
  m 27518620792498317550000000, m 27296798254561435020000000, m 27074205665981305320000000, m 26850851311554558430000000,
  m 26626743495698441950000000, m 26401890542151529310000000, m 26176300793674948250000000, m 25949982611751767210000000,
  m 25722944376287474460000000, m 25495194485309076450000000, m 25266741354664199600000000, m 25037593417720202530000000,
  m 24807759125061626390000000, m 24577246944188772810000000, m 24346065359215022380000000, m 24114222870564763770000000,
  m 23881727994668804080000000, m 23648589263663005730000000, m 23414815225082971640000000, m 23180414441560995980000000,
  m 22945395490521415530000000, m 22709766963876634040000000, m 22473537467721221160000000, m 22236715622028446760000000,
  m 21999310060343509050000000, m 21761329429479652630000000, m 21522782389210359110000000, m 21283677611965812200000000,
  m 21044023782524904490000000, m 20803829597709943420000000, m 20563103766079678100000000, m 20321855007623391280000000,
  m 20080092053453076070000000, m 19837823645497298930000000, m 19595058536193837860000000, m 19351805488182303310000000,
  m 19108073273997619460000000, m 18863870675761579970000000, m 18619206484875940740000000, m 18374089501714593180000000,
  m 18128528535316733310000000, m 17882532403077279480000000, m 17636109930441505600000000, m 17389269950595420690000000,
  m 17142021304158552850000000, m 16894372838876240560000000, m 16646333409312076560000000, m 16397911876538624060000000,
  m 16149117107831602310000000, m 15899957976360599290000000, m 15650443360881793190000000, m 15400582145430021660000000,
  m 15150383219011723590000000, m 14899855475296472360000000, m 14649007812309641770000000, m 14397849132125915130000000,
  m 14146388340559932010000000, m 13894634346861351600000000, m 13642596063405957460000000, m 13390282405389461460000000,
  m 13137702290520247850000000, m 12884864638713508510000000, m 12631778371782921910000000, m 12378452413136393010000000,
  m 12124895687468209210000000, m 11871117120453690900000000, m 11617125638443128940000000, m 11362930168156853280000000,
  m 11108539636378181660000000, m 10853962969650389480000000, m 10599209093970081780000000, m 10344286934483084080000000,
  m 10089205415180537910000000, m 9833973458593743902000000, m 9578599985490971955000000, m 9323093914573563762000000,
  m 9067464162173310277000000, m 8811719641947927950000000, m 8555869264580420741000000, m 8299921937475201669000000,
  m 8043886564456753999000000, m 7787772045467711290000000, m 7531587276268427583000000, m 7275341148134297636000000,
  m 7019042547557440004000000, m 6762700355944790964000000, m 6506323449319266310000000, m 6249920698019990721000000,
  m 5993500966404121354000000, m 5737073112547368646000000, m 5480645987946627419000000, m 5224228437222215062000000,
  m 4967829297820585029000000, m 4711457399718278066000000, m 4455121565124857755000000, m 4198830608187782872000000,
  m 3942593334696933675000000, m 3686418541790675157000000, m 3430315017659999518000000, m 3174291541257058796000000,
  m 2918356882000325194000000, m 2662519799482811027000000, m 2406789043179776919000000, m 2151173352158020774000000,
  m 1895681454783338347000000, m 1640322068432381337000000, m 1385103899201141223000000, m 1130035641617361608000000,
  m 875125978350236254600000, m 620383579924702727700000, m 365817104432520409000000, m 111435197246450041600000,
  p 142753509265987961900000, p 396740396027183512800000, p 650516857534971597800000, p 904074302145949689600000,
  p 1157404152358894713000000, p 1410497845097456997000000, p 1663346831991413272000000, p 1915942579658723487000000,
  p 2168276569985339974000000, p 2420340300405178155000000, p 2672125284178331929000000, p 2923623050670949835000000,
  p 3174825145630515068000000, p 3425723131464205283000000, p 3676308587514073942000000, p 3926573110332396040000000,
  p 4176508313955305980000000, p 4426105830177932965000000, p 4675357308825033031000000, p 4924254418024512012000000,
  p 5172788844477903616000000, p 5420952293730155365000000, p 5668736490439921054000000, p 5916133178647458440000000,
  p 6163134122042608458000000, p 6409731104230886184000000, p 6655915929000998620000000, p 6901680420587838309000000,
  p 7147016423938205680000000, p 7391915804973368115000000, p 7636370450851612084000000, p 7880372270228933052000000,
  p 8123913193521218115000000, p 8366985173161568812000000, p 8609580183860635408000000, p 8851690222863483476000000,
  p 9093307310206582769000000, p 9334423488972936472000000, p 9575030825547659746000000, p 9815121409871190375000000,
  p 10054687355692202770000000, p 10293720800819475960000000, p 10532213907372122220000000, p 10770158862030065550000000,
  p 11007547876282398540000000, p 11244373186675085330000000, p 11480627055057163880000000, p 11716301768827711710000000,
  p 11951389641178405270000000, p 12185883011338709270000000, p 12419774244817478530000000, p 12653055733644542540000000,
  p 12885719896610322780000000, p 13117759179506542980000000, p 13349166055362290260000000, p 13579933024682508400000000,
  p 13810052615683148310000000, p 14039517384526228190000000, p 14268319915552749730000000, p 14496452821516186620000000,
  p 14723908743813005070000000, p 14950680352713170350000000, p 15176760347589180610000000, p 15402141457143478720000000,
  p 15626816439635884960000000, p 15850778083108515990000000, p 16074019205610485390000000, p 16296532655420335050000000,
  p 16518311311269344430000000, p 16739348082560501220000000, p 16959635909589598770000000, p 17179167763762569210000000,
  p 17397936647813135730000000, p 17615935596017928690000000, p 17833157674412111750000000, p 18049595981001954890000000,
  p 18265243645977528860000000, p 18480093831922672630000000, p 18694139734026265360000000, p 18907374580288495440000000,
  p 19119791631729568530000000, p 19331384182594876790000000, p 19542145560559557450000000, p 19752069126931313250000000,
  p 19961148276853218910000000, p 20169376439503668850000000, p 20376747078295547740000000, p 20583253691075237970000000,
  p 20788889810317769110000000, p 20993649003323469620000000, p 21197524872411364210000000, p 21400511055112089040000000,
  p 21602601224358523870000000, p 21803789088677319460000000, p 22004068392375664840000000, p 22203432915729889860000000,
  p 22401876475170830890000000, p 22599392923468498980000000, p 22795976149914860820000000, p 22991620080506623010000000,
  p 23186318678124141070000000, p 23380065942711698860000000, p 23572855911454703580000000, p 23764682658955271070000000,
  p 23955540297408029620000000, p 24145422976772849820000000, p 24334324884947095700000000, p 24522240247935638000000000,
  p 24709163330021155500000000, p 24895088433930196580000000, p 25080009901000864530000000, p 25263922111346856500000000,
  p 25446819484021152010000000, p 25628696477177324850000000, p 25809547588231396280000000, p 25989367354019111970000000,
  p 26168150350954672710000000, p 26345891195186408460000000, p 26522584542751647530000000, p 26698225089729098190000000,
  p 26872807572391556320000000, p 27046326767355469840000000, p 27218777491729628790000000, p 27390154603262648060000000,
  p 27560453000488073510000000, p 27729667622869415280000000, p 27897793450942214720000000, p 28064825506455604730000000,
  p 28230758852511507460000000, p 28395588593703693230000000, p 28559309876253234640000000, p 28721917888144602590000000,
  p 28883407859259014470000000, p 29043775061506373750000000, p 29203014808955523460000000, p 29361122457964364260000000,
  p 29518093407305920350000000, p 29673923098295217070000000, p 29828607014913379600000000, p 29982140683930631750000000,
  p 30134519675027150730000000, p 30285739600913259150000000, p 30435796117447493770000000, p 30584684923753144290000000,
  p 30732401762333605430000000, p 30878942419185088920000000, p 31024302723909574770000000, p 31168478549824608910000000,
  p 31311465814072098060000000, p 31453260477725439310000000, p 31593858545895858740000000, p 31733256067835301230000000,
  p 31871449137039840890000000, p 32008433891350218660000000, p 32144206513051290510000000, p 32278763228969324650000000,
  p 32412100310568632560000000, p 32544214074045771380000000, p 32675100880422892900000000, p 32804757135638074050000000,
  p 32933179290636563350000000, p 33060363841457392210000000, p 33186307329321013130000000, p 33311006340713524010000000,
  p 33434457507470462250000000, p 33556657506858045270000000, p 33677603061653779700000000, p 33797290940224496150000000,
  p 33915717956603336210000000, p 34032880970565351770000000, p 34148776887700536820000000, p 34263402659486387470000000,
  p 34376755283357866840000000, p 34488831802776676040000000, p 34599629307297638530000000, p 34709144932635382920000000,
  p 34817375860727098340000000, p 34924319319795511800000000, p 35029972584409312110000000, p 35134332975542345580000000,
  p 35237397860630577380000000, p 35339164653628671320000000, p 35439630815063440090000000, p 35538793852086511540000000,
  p 35636651318525641720000000, p 35733200814933072100000000, p 35828439988634309950000000, p 35922366533773349150000000,
  p 36014978191357134570000000, p 36106272749298437550000000, p 36196248042457267180000000, p 36284901952679332600000000,
  p 36372232408835199200000000, p 36458237386855399390000000, p 36542914909765661370000000, p 36626263047719390120000000,
  p 36708279918029620980000000, p 36788963685197906270000000, p 36868312560942737010000000, p 36946324804226118870000000,
  p 37022998721278191360000000, p 37098332665619973560000000, p 37172325038085624050000000, p 37244974286841717180000000,
  p 37316278907405887880000000, p 37386237442663068640000000, p 37454848482880769010000000, p 37522110665722349650000000,
  p 37588022676258707470000000, p 37652583246978496570000000, p 37715791157796337010000000, p 37777645236060163060000000,
  p 37838144356555789010000000, p 37897287441511232080000000, p 37955073460597989200000000, p 38011501430931952940000000,
  p 38066570417071718400000000, p 38120279531016265650000000, p 38172627932199783280000000, p 38223614827485818960000000,
  p 38273239471160035160000000, p 38321501164919981320000000, p 38368399257864858890000000, p 38413933146482469320000000,
  p 38458102274635433400000000, p 38500906133545155510000000, p 38542344261774441620000000, p 38582416245208694950000000,
  p 38621121717034946620000000, p 38658460357720157710000000, p 38694431894986933140000000]

/-- src/mid_qual_coeffs.h:3466-3956 -/
def row7 : List ℤ := [
  p 38729036103788395950000000, p 38762272806281368450000000, p 38794141871797201140000000, p 38824643216812150530000000,
  p 38853776804915453320000000, p 38881542646776033610000000, p 38907940800107107540000000, p 38932971369630600680000000,
  p 38956634507038109820000000, p 38978930410951788400000000, p 38999859326882976850000000, p 39019421547189167550000000,
  p 39037617411030102470000000, p 39054447304321324160000000, p 39069911659686762380000000, p 39084010956410050740000000,
  p 39096745720383269120000000, p 39108116524055436260000000, p 39118123986378157410000000, p 39126768772750578070000000,
  p 39134051594962665500000000, p 39139973211136588890000000, p 39144534425666968610000000, p 39147736089159432260000000,
  p 39149579098367345840000000, p 39150064396127594310000000, p 39149192971294412280000000, p 39146965858671778360000000,
  p 39143384138944324610000000, p 39138448938606650030000000, p 39132161429891468290000000, p 39124522830695541990000000,
  p 39115534404504818940000000, p 39105197460317771270000000, p 39093513352566985900000000, p 39080483481039852980000000,
  p 39066109290797193520000000, p 39050392272090915510000000, p 39033333960279366360000000, p 39014935935742095510000000,
  p 38995199823793021130000000, p 38974127294591161260000000, p 38951720063051538390000000, p 38927979888752801960000000,
  p 38902908575844892540000000, p 38876507972954540970000000, p 38848779973089088420000000, p 38819726513539626330000000,
  p 38789349575782089420000000, p 38757651185376884580000000, p 38724633411867610820000000, p 38690298368677655820000000,
  p 38654648213006320700000000, p 38617685145721995790000000, p 38579411411255849770000000, p 38539829297492507460000000,
  p 38498941135659950350000000, p 38456749300218293080000000, p 38413256208746623940000000, p 38368464321828762990000000,
  p 38322376142937472630000000, p 38274994218317731630000000, p 38226321136867434660000000, p 38176359530018702530000000,
  p 38125112071615750720000000, p 38072581477792737100000000, p 38018770506849659810000000, p 37963681959127380800000000,
  p 37907318676880706610000000, p 37849683544150324040000000, p 37790779486633944980000000, p 37730609471555431880000000,
  p 37669176507532563250000000, p 37606483644444216320000000, p 37542533973295655340000000, p 37477330626082244750000000,
  p 37410876775652988910000000, p 37343175635571095040000000, p 37274230459974973250000000, p 37204044543436835810000000,
  p 37132621220820200000000000, p 37059963867136482000000000, p 36986075897400008670000000, p 36910960766481731850000000,
  p 36834621968962047430000000, p 36757063038981713230000000, p 36678287550092593390000000, p 36598299115105613340000000,
  p 36517101385939013110000000, p 36434698053464477370000000, p 36351092847352377280000000, p 36266289535915485760000000,
  p 36180291925952033640000000, p 36093103862586892180000000, p 36004729229112152070000000, p 35915171946826057740000000,
  p 35824435974871143840000000, p 35732525310070956110000000, p 35639443986765433070000000, p 35545196076645503570000000,
  p 35449785688586532560000000, p 35353216968480288830000000, p 35255494099065476380000000, p 35156621299758661350000000,
  p 35056602826481882140000000, p 34955442971490606470000000, p 34853146063200481090000000, p 34749716466012325890000000,
  p 34645158580136413420000000, p 34539476841415839290000000, p 34432675721148303660000000, p 34324759725907282030000000,
  p 34215733397361537680000000, p 34105601312094689650000000, p 33994368081422074450000000, p 33882038351207934000000000,
  p 33768616801681111680000000, p 33654108147249277290000000, p 33538517136312936960000000, p 33421848551077708300000000,
  p 33304107207365651890000000, p 33185297954426221100000000, p 33065425674745477220000000, p 32944495283854263730000000,
  p 32822511730136609550000000, p 32699479994635183290000000, p 32575405090857455230000000, p 32450292064580041340000000,
  p 32324145993652443620000000, p 32196971987799367920000000, p 32068775188422854460000000, p 31939560768402604220000000,
  p 31809333931895979190000000, p 31678099914136802210000000, p 31545863981233671080000000, p 31412631429966274280000000,
  p 31278407587582164610000000, p 31143197811591988990000000, p 31007007489563091080000000, p 30869842038914213630000000,
  p 30731706906706925810000000, p 30592607569438119010000000, p 30452549532830369000000000, p 30311538331622738670000000,
  p 30169579529358621360000000, p 30026678718175627700000000, p 29882841518591909260000000, p 29738073579293474590000000,
  p 29592380576919766890000000, p 29445768215849318220000000, p 29298242227982895100000000, p 29149808372528254050000000,
  p 29000472435782041760000000, p 28850240230912024830000000, p 28699117597738302980000000, p 28547110402513672240000000,
  p 28394224537703200570000000, p 28240465921763182460000000, p 28085840498919645990000000, p 27930354238945229170000000,
  p 27774013136936764180000000, p 27616823213090349600000000, p 27458790512477630060000000, p 27299921104819713240000000,
  p 27140221084261988840000000, p 26979696569145988210000000, p 26818353701783970850000000, p 26656198648229136040000000,
  p 26493237598048256090000000, p 26329476764091138550000000, p 26164922382261892460000000, p 25999580711287478140000000,
  p 25833458032486884830000000, p 25666560649539191250000000, p 25498894888251397160000000, p 25330467096325005870000000,
  p 25161283643122915600000000, p 24991350919434825870000000, p 24820675337242643910000000, p 24649263329485814750000000,
  p 24477121349824201850000000, p 24304255872402980020000000, p 24130673391614784060000000, p 23956380421863255480000000,
  p 23781383497323709680000000, p 23605689171706203950000000, p 23429304018015434390000000, p 23252234628311864440000000,
  p 23074487613471392910000000, p 22896069602945615110000000, p 22716987244519863680000000, p 22537247204073147110000000,
  p 22356856165335347450000000, p 22175820829645462310000000, p 21994147915708747030000000, p 21811844159354183000000000,
  p 21628916313290062060000000, p 21445371146860941340000000, p 21261215445802717630000000, p 21076456011998343650000000,
  p 20891099663232853830000000, p 20705153232947453440000000, p 20518623569994075970000000, p 20331517538388976100000000,
  p 20143842017066988790000000, p 19955603899633238270000000, p 19766810094117629600000000, p 19577467522726273160000000,
  p 19387583121593929270000000, p 19197163840536008580000000, p 19006216642800562170000000, p 18814748504818568090000000,
  p 18622766415956292650000000, p 18430277378265007980000000, p 18237288406232093910000000, p 18043806526531008800000000,
  p 17849838777771818990000000, p 17655392210250329950000000, p 17460473885697970490000000, p 17265090877031753070000000,
  p 17069250268101854310000000, p 16872959153442560610000000, p 16676224638019512130000000, p 16479053836979052490000000,
  p 16281453875396232480000000, p 16083431888023778240000000, p 15884995019038870150000000, p 15686150421792801470000000,
  p 15486905258557370420000000, p 15287266700273242910000000, p 15087241926297399390000000, p 14886838124150803680000000,
  p 14686062489265336310000000, p 14484922224731329800000000, p 14283424541044803870000000, p 14081576655854270360000000,
  p 13879385793708452420000000, p 13676859185802338340000000, p 13474004069724723750000000, p 13270827689204891740000000,
  p 13067337293859998880000000, p 12863540138940516770000000, p 12659443485079009340000000, p 12455054598035230840000000,
  p 12250380748443891880000000, p 12045429211561049790000000, p 11840207267011536310000000, p 11634722198535032280000000,
  p 11428981293733493640000000, p 11222991843817871350000000, p 11016761143355712630000000, p 10810296490016912950000000,
  p 10603605184322609580000000, p 10396694529390959620000000, p 10189571830685079450000000, p 9982244395760354536000000,
  p 9774719534012271324000000, p 9567004556423359257000000, p 9359106775311510154000000, p 9151033504077636660000000,
  p 8942792056953613455000000, p 8734389748750952254000000, p 8525833894608396066000000, p 8317131809740840528000000,
  p 8108290809187831960000000, p 7899318207562969207000000, p 7690221318801668780000000, p 7481007455912013458000000,
  p 7271683930722933759000000, p 7062258053634427706000000, p 6852737133367259315000000, p 6643128476713625920000000,
  p 6433439388286207872000000, p 6223677170270484720000000, p 6013849122174232467000000, p 5803962540579294185000000,
  p 5594024718892734796000000, p 5384042947099001997000000, p 5174024511511204211000000, p 4963976694523694784000000,
  p 4753906774365251192000000, p 4543822024850515187000000, p 4333729715135012546000000, p 4123637109467314862000000,
  p 3913551466943596124000000, p 3703480041261589077000000, p 3493430080475851737000000, p 3283408826751327801000000,
  p 3073423516120447636000000, p 2863481378237488391000000, p 2653589636135308093000000, p 2443755505981569289000000,
  p 2233986196836339200000000, p 2024288910407985934000000, p 1814670840812705049000000, p 1605139174331314143000000,
  p 1395701089168377386000000, p 1186363755211621495000000, p 977134333790714631700000, p 768019977437731440900000,
  p 559027829647355616600000, p 350165024638414998500000, p 141438687113910877300000, m 67144067975325244710000,
  m 275576135669621511700000, m 483850421236929910300000, m 691959840409656491500000, m 899897319620092633700000,
  m 1107655796237313854000000, m 1315228218800422108000000, m 1522607547254347564000000, m 1729786753183119906000000,
  m 1936758820043437681000000, m 2143516743396924572000000, m 2350053531143047464000000, m 2556362203750230187000000,
  m 2762435794486947736000000, m 2968267349652289888000000, m 3173849928805214018000000, m 3379176604994517819000000,
  m 3584240464986861337000000, m 3789034609494973740000000, m 3993552153404298852000000, m 4197786226001021942000000,
  m 4401729971196341289000000, m 4605376547753154901000000, m 4808719129510105258000000, m 5011750905605867785000000,
  m 5214465080701932709000000, m 5416854875205988872000000, m 5618913525493401950000000, m 5820634284128644101000000,
  m 6022010420085259497000000, m 6223035218966967846000000, m 6423701983225124992000000, m 6624004032378331096000000,
  m 6823934703229525209000000, m 7023487350083052090000000, m 7222655344960342109000000, m 7421432077815970189000000,
  m 7619810956751992166000000, m 7817785408231142305000000, m 8015348877291375226000000, m 8212494827756386742000000,
  m 8409216742448382895000000, m 8605508123398268594000000, m 8801362492055639364000000, m 8996773389497357554000000,
  m 9191734376637086118000000, m 9386239034430995595000000, m 9580280964085745310000000, m 9773853787263610954000000,
  m 9966951146287629515000000, m 10159566704345125710000000, m 10351694145692110980000000, m 10543327175854098550000000,
  m 10734459521828792000000000, m 10925084932286237630000000, m 11115197177768239640000000, m 11304790050887816850000000,
  m 11493857366526668080000000, m 11682392962032500310000000, m 11870390697414611930000000, m 12057844455540200900000000,
  m 12244748142327234810000000, m 12431095686938998380000000, m 12616881041976009400000000, m 12802098183667662280000000,
  m 12986741112062326000000000, m 13170803851218148080000000, m 13354280449390083800000000, m 13537164979218998390000000,
  m 13719451537917629410000000, m 13901134247456715600000000, m 14082207254749280060000000, m 14262664731835090340000000,
  m 14442500876063116620000000, m 14621709910273290870000000, m 14800286082977554690000000, m 14978223668539264460000000,
  m 15155516967352547840000000, m 15332160306019705300000000, m 15508148037528144900000000, m 15683474541425719560000000,
  m 15858134223996438880000000, m 16032121518432702890000000, m 16205430885009215050000000, m 16378056811253802190000000,
  m 16549993812118295180000000, m 16721236430147584650000000, m 16891779235648825970000000, m 17061616826857681220000000,
  m 17230743830105504920000000, m 17399154899984087260000000, m 17566844719509970560000000, m 17733808000286975510000000,
  m 17900039482668821110000000, m 18065533935919527580000000, m 18230286158373066460000000, m 18394290977592434730000000,
  m 18557543250526352400000000, m 18720037863666619260000000, m 18881769733202526110000000, m 19042733805175744710000000,
  m 19202925055632324300000000, m 19362338490775985590000000, m 19520969147117352150000000, m 19678812091624670040000000,
  m 19835862421871644500000000, m 19992115266185071790000000, m 20147565783790503950000000, m 20302209164957823320000000,
  m 20456040631144603580000000, m 20609055435139158470000000, m 20761248861201231360000000, m 20912616225203514010000000,
  m 21063152874769442560000000, m 21212854189412058690000000, m 21361715580670348480000000, m 21509732492245022680000000,
  m 21656900400132295110000000, m 21803214812757786000000000, m 21948671271108187440000000, m 22093265348861450960000000,
  m 22236992652517505870000000, m 22379848821525147320000000, m 22521829528410353820000000, m 22662930478901319180000000,
  m 22803147412053696020000000, m 22942476100373278970000000, m 23080912349939294860000000, m 23218452000524029270000000,
  m 23355090925713643120000000, m 23490825033026008910000000, m 23625650264028276450000000, m 23759562594452252740000000,
  m 23892558034310260730000000, m 24024632628007185080000000, m 24155782454453839790000000, m 24286003627177411150000000,
  m 24415292294430870210000000, m 24543644639302145820000000, m 24671056879820602030000000, m 24797525269063269010000000,
  m 24923046095259075720000000, m 25047615681892832630000000, m 25171230387806504960000000, m 25293886607300402470000000,
  m 25415580770232627790000000, m 25536309342117348430000000, m 25656068824221146820000000, m 25774855753659609710000000,
  m 25892666703490364870000000, m 26009498282807325120000000, m 26125347136831567060000000, m 26240209947002206270000000,
  m 26354083431064861260000000, m 26466964343160429700000000, m 26578849473910700490000000, m 26689735650504007450000000,
  m 26799619736778856890000000, m 26908498633306399820000000, m 27016369277472175590000000, m 27123228643555302030000000,
  m 27229073742807700240000000, m 27333901623530717370000000, m 27437709371151954020000000, m 27540494108298917140000000,
  m 27642252994872787420000000, m 27742983228120559470000000, m 27842682042705381440000000, m 27941346710775648990000000,
  m 28038974542033651830000000, m 28135562883801507050000000, m 28231109121086769840000000, m 28325610676646427450000000,
  m 28419065011049415150000000, m 28511469622737810330000000, m 28602822048086874730000000, m 28693119861463691620000000,
  m 28782360675284415080000000, m 28870542140069888750000000, m 28957661944500497770000000, m 29043717815469379670000000,
  m 29128707518134119150000000, m 29212628855967329170000000, m 29295479670805719270000000, m 29377257842898237690000000,
  m 29457961290952079660000000, m 29537587972178192680000000, m 29616135882334478080000000]

/-- src/mid_qual_coeffs.h:3957-4447 -/
def row8 : List ℤ := [
  m 29693603055769145220000000, m 29769987565460630930000000, m 29845287523058247610000000, m 29919501078919830130000000,
  m 29992626422149320370000000, m 30064661780631676820000000, m 30135605421068040880000000, m 30205455649007794530000000,
  m 30274210808880690910000000, m 30341869284026996840000000, m 30408429496725990910000000, m 30473889908223784910000000,
  m 30538249018759525130000000, m 30601505367589952600000000, m 30663657533012630970000000, m 30724704132388862280000000,
  m 30784643822163400280000000, m 30843475297884323520000000, m 30901197294221052080000000, m 30957808584980903850000000,
  m 31013307983124328850000000, m 31067694340778957000000000, m 31120966549252157550000000, m 31173123539042148220000000,
  m 31224164279848112130000000, m 31274087780578614660000000, m 31322893089358497250000000, m 31370579293535344470000000,
  m 31417145519683241370000000, m 31462590933606392200000000, m 31506914740340702390000000, m 31550116184154229640000000,
  m 31592194548546365110000000, m 31633149156245259080000000, m 31672979369204642960000000, m 31711684588598458570000000,
  m 31749264254815001700000000, m 31785717847448748120000000, m 31821044885291784040000000, m 31855244926323460220000000,
  m 31888317567698512560000000, m 31920262445734017000000000, m 31951079235895657460000000, m 31980767652781239010000000,
  m 32009327450104166360000000, m 32036758420675146010000000, m 32063060396382236930000000, m 32088233248170096310000000,
  m 32112276886017629420000000, m 32135191258914098940000000, m 32156976354834707070000000, m 32177632200713707220000000,
  m 32197158862417099570000000, m 32215556444713737420000000, m 32232825091244990400000000, m 32248964984493193320000000,
  m 32263976345748839050000000, m 32277859435076307340000000, m 32290614551278525040000000, m 32302242031859967900000000,
  m 32312742252988857490000000, m 32322115629457401350000000, m 32330362614641429410000000, m 32337483700458101440000000,
  m 32343479417322899830000000, m 32348350334104998550000000, m 32352097058081091820000000, m 32354720234888646730000000,
  m 32356220548477088170000000, m 32356598721058400790000000, m 32355855513055913060000000, m 32353991723052130670000000,
  m 32351008187735001700000000, m 32346905781843245110000000, m 32341685418110284470000000, m 32335348047206669000000000,
  m 32327894657681648110000000, m 32319326275903129120000000, m 32309643965996601160000000, m 32298848829782761390000000,
  m 32286942006713857670000000, m 32273924673808601640000000, m 32259798045586075830000000, m 32244563373998724740000000,
  m 32228221948363021400000000, m 32210775095290272720000000, m 32192224178614919920000000, m 32172570599322686260000000,
  m 32151815795476677840000000, m 32129961242142873750000000, m 32107008451313749640000000, m 32082958971831436470000000,
  m 32057814389308908480000000, m 32031576326050831270000000, m 32004246440972099200000000, m 31975826429516192310000000,
  m 31946318023571937390000000, m 31915722991388631450000000, m 31884043137490915290000000, m 31851280302591572500000000,
  m 31817436363503821820000000, m 31782513233051735980000000, m 31746512859980112460000000, m 31709437228863025790000000,
  m 31671288360010749210000000, m 31632068309376239200000000, m 31591779168459954710000000, m 31550423064213468930000000,
  m 31508002158942526040000000, m 31464518650208168900000000, m 31419974770727221450000000, m 31374372788271466530000000,
  m 31327715005565900940000000, m 31280003760185436100000000, m 31231241424450936070000000, m 31181430405323666550000000,
  m 31130573144298987610000000, m 31078672117299036700000000, m 31025729834563572920000000, m 30971748840540769270000000,
  m 30916731713776044590000000, m 30860681066800104560000000, m 30803599546015983380000000, m 30745489831584999620000000,
  m 30686354637311182010000000, m 30626196710525604990000000, m 30565018831968319980000000, m 30502823815670421920000000,
  m 30439614508834266640000000, m 30375393791713167780000000, m 30310164577489494280000000, m 30243929812152257900000000,
  m 30176692474373104790000000, m 30108455575382091910000000, m 30039222158841243080000000, m 29968995300718368620000000,
  m 29897778109158716640000000, m 29825573724356426590000000, m 29752385318424622720000000, m 29678216095264327990000000,
  m 29603069290432933860000000, m 29526948171011070670000000, m 29449856035468759820000000, m 29371796213530386440000000,
  m 29292772066039547000000000, m 29212786984821159650000000, m 29131844392544656990000000, m 29049947742584639190000000,
  m 28967100518881218340000000, m 28883306235799589140000000, m 28798568437988159710000000, m 28712890700236051030000000,
  m 28626276627329631800000000, m 28538729853907950080000000, m 28450254044317339200000000, m 28360852892465430310000000,
  m 28270530121673499710000000, m 28179289484528566300000000, m 28087134762734309450000000, m 27994069766961272170000000,
  m 27900098336695548090000000, m 27805224340087839750000000, m 27709451673800074290000000, m 27612784262852584780000000,
  m 27515226060468887110000000, m 27416781047921643530000000, m 27317453234375638910000000, m 27217246656730993000000000,
  m 27116165379465786280000000, m 27014213494477173210000000, m 26911395120921839660000000, m 26807714405055783900000000,
  m 26703175520073358510000000, m 26597782665945063350000000, m 26491540069255133800000000, m 26384451983037741220000000,
  m 26276522686612631410000000, m 26167756485420096830000000, m 26058157710855220370000000, m 25947730720100651430000000,
  m 25836479895959791470000000, m 25724409646687877020000000, m 25611524405823545000000000, m 25497828632018597340000000,
  m 25383326808867998080000000, m 25268023444737861690000000, m 25151923072594378070000000, m 25035030249830277780000000,
  m 24917349558091855810000000, m 24798885603104590250000000, m 24679643014498552770000000, m 24559626445632358470000000,
  m 24438840573417261460000000, m 24317290098139994480000000, m 24194979743285167930000000, m 24071914255357085980000000,
  m 23948098403700466410000000, m 23823536980320865470000000, m 23698234799704353400000000, m 23572196698636881110000000,
  m 23445427536021728330000000, m 23317932192698394980000000, m 23189715571258831540000000, m 23060782595864266070000000,
  m 22931138212060952350000000, m 22800787386595789550000000, m 22669735107230071930000000, m 22537986382554740790000000,
  m 22405546241802687390000000, m 22272419734662388110000000, m 22138611931089791090000000, m 22004127921120379690000000,
  m 21868972814679851770000000, m 21733151741395093790000000, m 21596669850404207750000000, m 21459532310165539000000000,
  m 21321744308267463750000000, m 21183311051236063810000000, m 21044237764343415310000000, m 20904529691414781150000000,
  m 20764192094636018530000000, m 20623230254358814600000000, m 20481649468908041940000000, m 20339455054386088720000000,
  m 20196652344478056160000000, m 20053246690256324590000000, m 19909243459984696250000000, m 19764648038921108640000000,
  m 19619465829121891800000000, m 19473702249243381860000000, m 19327362734344485230000000, m 19180452735688618280000000,
  m 19032977720544595750000000, m 18884943171987873120000000, m 18736354588700813990000000, m 18587217484773242010000000,
  m 18437537389501070660000000, m 18287319847187111930000000, m 18136570416938672250000000, m 17985294672466827640000000,
  m 17833498201884252080000000, m 17681186607503490000000000, m 17528365505633806270000000, m 17375040526378723180000000,
  m 17221217313432558150000000, m 17066901523877475030000000, m 16912098827978349490000000, m 16756814908980139510000000,
  m 16601055462902105510000000, m 16444826198333657720000000, m 16288132836228968320000000, m 16130981109702027810000000,
  m 15973376763820268390000000, m 15815325555399196990000000, m 15656833252795928500000000, m 15497905635702620070000000,
  m 15338548494940236820000000, m 15178767632250926220000000, m 15018568860091159250000000, m 14857958001424236700000000,
  m 14696940889512937620000000, m 14535523367710721090000000, m 14373711289254858730000000, m 14211510517057183640000000,
  m 14048926923496145650000000, m 13885966390207745910000000, m 13722634807877324980000000, m 13558938076029505150000000,
  m 13394882102820200590000000, m 13230472804826401770000000, m 13065716106836990430000000, m 12900617941643030550000000,
  m 12735184249828317840000000, m 12569420979558950870000000, m 12403334086373639380000000, m 12236929532973483610000000,
  m 12070213289011678950000000, m 11903191330883525910000000, m 11735869641515352460000000, m 11568254210154537910000000,
  m 11400351032158575690000000, m 11232166108784967170000000, m 11063705446979382390000000, m 10894975059166266820000000,
  m 10725980963036939670000000, m 10556729181339175390000000, m 10387225741666093050000000, m 10217476676245807260000000,
  m 10047488021729212430000000, m 9877265818980634701000000, m 9706816112865510396000000, m 9536144952040109812000000,
  m 9365258388740322487000000, m 9194162478571054828000000, m 9022863280294793342000000, m 8851366855620984922000000,
  m 8679679268995585395000000, m 8507806587389124889000000, m 8335754880087448138000000, m 8163530218479833622000000,
  m 7991138675848901210000000, m 7818586327159883151000000, m 7645879248850672230000000, m 7473023518620261832000000,
  m 7300025215219971969000000, m 7126890418242071493000000, m 6953625207910332784000000, m 6780235664869733829000000,
  m 6606727869977159495000000, m 6433107904091067177000000, m 6259381847862280010000000, m 6085555781524558915000000,
  m 5911635784685204120000000, m 5737627936116367934000000, m 5563538313545551318000000, m 5389372993447197682000000,
  m 5215138050833963146000000, m 5040839559048849831000000, m 4866483589555837749000000, m 4692076211733416276000000,
  m 4517623492665615893000000, m 4343131496934970678000000, m 4168606286414993332000000, m 3994053920063510635000000,
  m 3819480453715101177000000, m 3644891939874956438000000, m 3470294427512249195000000, m 3295693961854606960000000,
  m 3121096584181022853000000, m 2946508331617845190000000, m 2771935236932227854000000, m 2597383328327730438000000,
  m 2422858629239335506000000, m 2248367158129460728000000, m 2073914928283230718000000, m 1899507947605078538000000,
  m 1725152218415164406000000, m 1550853737246128987000000, m 1376618494640682172000000, m 1202452474948495368000000,
  m 1028361656124486979000000, m 854352009526840208500000, m 680429499716104948900000, m 506600084252987136400000,
  m 332869713499145901900000, m 159244330415740783700000, p 14270129635957132830000, p 187667739094290087100000,
  p 360942578395807053400000, p 534088736175020954000000, p 707100309461764484900000, p 879971403879171217700000,
  p 1052696133841647284000000, p 1225268622751578230000000, p 1397683003195592704000000, p 1569933417141219922000000,
  p 1742014016132769879000000, p 1913918961485100434000000, p 2085642424480469836000000, p 2257178586561334101000000,
  p 2428521639524397306000000, p 2599665785714316227000000, p 2770605238216777670000000, p 2941334221049340166000000,
  p 3111846969355572517000000, p 3282137729593889719000000, p 3452200759730636361000000, p 3622030329428905637000000,
  p 3791620720238545340000000, p 3960966225785719774000000, p 4130061151961897901000000, p 4298899817110462748000000,
  p 4467476552216401685000000, p 4635785701091860687000000, p 4803821620562829207000000, p 4971578680655551821000000,
  p 5139051264781509601000000, p 5306233769921847240000000, p 5473120606812043910000000, p 5639706200125558025000000,
  p 5805984988655794529000000, p 5971951425499591806000000, p 6137599978238397064000000, p 6302925129119171972000000,
  p 6467921375235353813000000, p 6632583228706884215000000, p 6796905216858062544000000, p 6960881882398097659000000,
  p 7124507783597640309000000, p 7287777494466331218000000, p 7450685604929750683000000, p 7613226721005292644000000,
  p 7775395464976892976000000, p 7937186475570675442000000, p 8098594408128030261000000, p 8259613934778883490000000,
  p 8420239744614810284000000, p 8580466543860569562000000, p 8740289056044948240000000, p 8899702022171707833000000,
  p 9058700200889377441000000, p 9217278368659456017000000, p 9375431319925636373000000, p 9533153867280931906000000,
  p 9690440841634272509000000, p 9847287092377029344000000, p 10003687487548571650000000, p 10159636913999492080000000,
  p 10315130277557330030000000, p 10470162503188341560000000, p 10624728535159990920000000, p 10778823337202937320000000,
  p 10932441892671484680000000, p 11085579204703261210000000, p 11238230296379251100000000, p 11390390210881451430000000,
  p 11542054011650412780000000, p 11693216782542698380000000, p 11843873627986443650000000, p 11994019673136362480000000,
  p 12143650064028486260000000, p 12292759967734033860000000, p 12441344572510681240000000, p 12589399087956398490000000,
  p 12736918745159237980000000, p 12883898796847655100000000, p 13030334517540327620000000, p 13176221203694826740000000,
  p 13321554173853999980000000, p 13466328768794720220000000, p 13610540351672369140000000, p 13754184308166354440000000,
  p 13897256046624572450000000, p 14039750998206613000000000, p 14181664617025920020000000, p 14322992380291717920000000,
  p 14463729788450027310000000, p 14603872365322486180000000, p 14743415658246092350000000, p 14882355238211098310000000,
  p 15020686699997579110000000, p 15158405662312265590000000, p 15295507767923842420000000, p 15431988683796251170000000,
  p 15567844101223669160000000, p 15703069735961975440000000, p 15837661328360477100000000, p 15971614643492865190000000,
  p 16104925471287098730000000, p 16237589626653017860000000, p 16369602949611896520000000, p 16500961305422043310000000,
  p 16631660584705030420000000, p 16761696703570961450000000, p 16891065603742389660000000, p 17019763252676921310000000,
  p 17147785643689877900000000, p 17275128796075414630000000, p 17401788755226015040000000, p 17527761592752315320000000,
  p 17653043406601086340000000, p 17777630321172150500000000, p 17901518487435052330000000, p 18024704083044271880000000,
  p 18147183312452599270000000, p 18268952407025661200000000, p 18390007625153314410000000, p 18510345252360806830000000,
  p 18629961601419539610000000, p 18748853012455889840000000, p 18867015853059269930000000, p 18984446518389996170000000,
  p 19101141431284635040000000, p 19217097042361460520000000, p 19332309830124808080000000, p 19446776301067801580000000,
  p 19560492989774365400000000, p 19673456459020695340000000, p 19785663299875026060000000, p 19897110131796045400000000,
  p 20007793602731714640000000, p 20117710389215368720000000, p 20226857196461854590000000, p 20335230758462278370000000,
  p 20442827838077822640000000, p 20549645227131780460000000, p 20655679746502137590000000, p 20760928246211229900000000,
  p 20865387605515494510000000, p 20969054732994155820000000, p 21071926566636221820000000]

/-- src/mid_qual_coeffs.h:4448-4938 -/
def row9 : List ℤ := [
  p 21174000073926665250000000, p 21275272251932035580000000, p 21375740127384350310000000, p 21475400756763799590000000,
  p 21574251226381242760000000, p 21672288652458980560000000, p 21769510181210160320000000, p 21865912988917903660000000,
  p 21961494282013029060000000, p 22056251297149741250000000, p 22150181301282316490000000, p 22243281591738637420000000,
  p 22335549496293457400000000, p 22426982373240793990000000, p 22517577611465378760000000, p 22607332630511442480000000,
  p 22696244880652933360000000, p 22784311842960466850000000, p 22871531029368015460000000, p 22957899982738869810000000,
  p 23043416276929806070000000, p 23128077516854105010000000, p 23211881338544564090000000, p 23294825409213935210000000,
  p 23376907427314998210000000, p 23458125122599808590000000, p 23538476256177050940000000, p 23617958620568837300000000,
  p 23696570039766346600000000, p 23774308369284225670000000, p 23851171496213373350000000, p 23927157339273967540000000,
  p 24002263848865817290000000, p 24076489007118371390000000, p 24149830827939953310000000, p 24222287357064806870000000,
  p 24293856672100013620000000, p 24364536882570998060000000, p 24434326129965273920000000, p 24503222587776235520000000,
  p 24571224461544780710000000, p 24638329988900167090000000, p 24704537439600091080000000, p 24769845115568966260000000,
  p 24834251350935587780000000, p 24897754512069589230000000, p 24960352997616251650000000, p 25022045238531076540000000,
  p 25082829698112461130000000, p 25142704872033589530000000, p 25201669288373085290000000, p 25259721507644477410000000,
  p 25316860122825038390000000, p 25373083759382152050000000, p 25428391075300486170000000, p 25482780761106278710000000,
  p 25536251539891485080000000, p 25588802167336426730000000, p 25640431431731492560000000, p 25691138153997154090000000,
  p 25740921187704008530000000, p 25789779419090247400000000, p 25837711767079156460000000, p 25884717183294703860000000,
  p 25930794652076535190000000, p 25975943190493410580000000, p 26020161848355847360000000, p 26063449708227454800000000,
  p 26105805885435005850000000, p 26147229528077547970000000, p 26187719817034535440000000, p 26227275965972438740000000,
  p 26265897221350548860000000, p 26303582862425477220000000, p 26340332201254475910000000, p 26376144582697862860000000,
  p 26411019384420104240000000, p 26444956016889776400000000, p 26477953923378580450000000, p 26510012579958910220000000,
  p 26541131495500761010000000, p 26571310211666837600000000, p 26600548302907381370000000, p 26628845376453064850000000,
  p 26656201072307126460000000, p 26682615063236703870000000, p 26708087054762432580000000, p 26732616785147014090000000,
  p 26756204025383392010000000, p 26778848579180745960000000, p 26800550282950232060000000, p 26821309005789013140000000,
  p 26841124649463626170000000, p 26859997148391816240000000, p 26877926469623721760000000, p 26894912612821422070000000,
  p 26910955610237936860000000, p 26926055526694532560000000, p 26940212459557452700000000, p 26953426538713097520000000,
  p 26965697926542648440000000, p 26977026817894780850000000, p 26987413440058082010000000, p 26996858052732001370000000,
  p 27005360947996524120000000, p 27012922450281202920000000, p 27019542916332725540000000, p 27025222735181438080000000,
  p 27029962328107032250000000, p 27033762148602914070000000, p 27036622682339458980000000, p 27038544447126146300000000,
  p 27039527992873124700000000, p 27039573901550754960000000, p 27038682787149281170000000, p 27036855295636024600000000,
  p 27034092104912716550000000, p 27030393924771235060000000, p 27025761496848078880000000, p 27020195594578258480000000,
  p 27013697023147785480000000, p 27006266619445055270000000, p 26997905252011608620000000, p 26988613820991203680000000,
  p 26978393258078239150000000, p 26967244526465147110000000, p 26955168620788626940000000, p 26942166567074651160000000,
  p 26928239422682711400000000, p 26913388276249061710000000, p 26897614247628355570000000, p 26880918487835116230000000,
  p 26863302178983489850000000, p 26844766534226245650000000, p 26825312797692558300000000, p 26804942244425099960000000,
  p 26783656180315737470000000, p 26761455942040525410000000, p 26738342896993456950000000, p 26714318443219125380000000,
  p 26689384009344781920000000, p 26663541054510946780000000, p 26636791068301253480000000, p 26609135570671189900000000,
  p 26580576111875899030000000, p 26551114272396838380000000, p 26520751662867856490000000, p 26489489923999631760000000,
  p 26457330726503667380000000, p 26424275771015057900000000, p 26390326788014461380000000, p 26355485537748649110000000,
  p 26319753810150718630000000, p 26283133424758835930000000, p 26245626230634058060000000, p 26207234106277742940000000,
  p 26167958959547092670000000, p 26127802727570339360000000, p 26086767376661147010000000, p 26044854902231368700000000,
  p 26002067328703536850000000, p 25958406709421896070000000, p 25913875126562974790000000, p 25868474691044737730000000,
  p 25822207542435384600000000, p 25775075848860455610000000, p 25727081806909649080000000, p 25678227641542712700000000,
  p 25628515605993659050000000, p 25577947981675272500000000, p 25526527078081655970000000, p 25474255232690312670000000,
  p 25421134810863298130000000, p 25367168205747758080000000, p 25312357838174589370000000, p 25256706156557704600000000,
  p 25200215636791135220000000, p 25142888782145753070000000, p 25084728123165107170000000, p 25025736217560719250000000,
  p 24965915650105457300000000, p 24905269032527349580000000, p 24843799003401851460000000, p 24781508228042981030000000,
  p 24718399398394326480000000, p 24654475232918700300000000, p 24589738476487203730000000, p 24524191900266952000000000,
  p 24457838301608993830000000, p 24390680503934222130000000, p 24322721356619211860000000, p 24253963734881069100000000,
  p 24184410539661270470000000, p 24114064697508836440000000, p 24042929160463150790000000, p 23971006905934559570000000,
  p 23898300936586396040000000, p 23824814280213758160000000, p 23750549989623406800000000, p 23675511142512074840000000,
  p 23599700841343926320000000, p 23523122213227248830000000, p 23445778409791232650000000, p 23367672607060324670000000,
  p 23288808005329463690000000, p 23209187829037553060000000, p 23128815326640808640000000, p 23047693770484597300000000,
  p 22965826456675431790000000, p 22883216704951411110000000, p 22799867858552532590000000, p 22715783284090303170000000,
  p 22630966371415723450000000, p 22545420533487681160000000, p 22459149206240140720000000, p 22372155848448552210000000,
  p 22284443941595320080000000, p 22196016989735917190000000, p 22106878519361970040000000, p 22017032079265932980000000,
  p 21926481240403899310000000, p 21835229595757836560000000, p 21743280760197252620000000, p 21650638370340608700000000,
  p 21557306084415202300000000, p 21463287582117129840000000, p 21368586564470565950000000, p 21273206753685634100000000,
  p 21177151893016731700000000, p 21080425746619446680000000, p 20983032099407068070000000, p 20884974756906378450000000,
  p 20786257545113279860000000, p 20686884310347233160000000, p 20586858919105131830000000, p 20486185257915214000000000,
  p 20384867233189569310000000, p 20282908771076392510000000, p 20180313817312112160000000, p 20077086337071850530000000,
  p 19973230314820390050000000, p 19868749754162202960000000, p 19763648677690436730000000, p 19657931126835989640000000,
  p 19551601161716197770000000, p 19444662860981658940000000, p 19337120321664139080000000, p 19228977659023264310000000,
  p 19120239006392220770000000, p 19010908515023634820000000, p 18900990353934669220000000, p 18790488709751640430000000,
  p 18679407786553640230000000, p 18567751805716983110000000, p 18455525005757335980000000, p 18342731642172975530000000,
  p 18229375987286616100000000, p 18115462330087039880000000, p 18000994976070029690000000, p 17885978247079919320000000,
  p 17770416481148406520000000, p 17654314032335565590000000, p 17537675270568649920000000, p 17420504581480835550000000,
  p 17302806366249867680000000, p 17184585041436203910000000, p 17065845038820061370000000, p 16946590805239046540000000,
  p 16826826802424848380000000, p 16706557506839376380000000, p 16585787409510641820000000, p 16464521015868760490000000,
  p 16342762845580487830000000, p 16220517432383979580000000, p 16097789323924194260000000, p 15974583081585370940000000,
  p 15850903280325668450000000, p 15726754508510295410000000, p 15602141367744255110000000, p 15477068472704625520000000,
  p 15351540450973848870000000, p 15225561942870186740000000, p 15099137601280242930000000, p 14972272091490072470000000,
  p 14844970091015801530000000, p 14717236289434252470000000, p 14589075388213773590000000, p 14460492100543285640000000,
  p 14331491151162728190000000, p 14202077276192401000000000, p 14072255222961660080000000, p 13942029749838054380000000,
  p 13811405626056049570000000, p 13680387631545059750000000, p 13548980556757165080000000, p 13417189202496206810000000,
  p 13285018379743567320000000, p 13152472909486826250000000, p 13019557622546397420000000, p 12886277359402292450000000,
  p 12752636970020400290000000, p 12618641313680211900000000, p 12484295258799191570000000, p 12349603682760092180000000,
  p 12214571471736497540000000, p 12079203520517955290000000, p 11943504732335850570000000, p 11807480018688649990000000,
  p 11671134299166753550000000, p 11534472501277159150000000, p 11397499560269062220000000, p 11260220418957508910000000,
  p 11122640027548293120000000, p 10984763343462369480000000, p 10846595331159654060000000, p 10708140961962901370000000,
  p 10569405213882748780000000, p 10430393071439822420000000, p 10291109525489589020000000, p 10151559573045818370000000,
  p 10011748217103561690000000, p 9871680466462499567000000, p 9731361335551406977000000, p 9590795844249579150000000,
  p 9449989017711180397000000, p 9308945886188217320000000, p 9167671484852981181000000, p 9026170853621350715000000,
  p 8884449036975935327000000, p 8742511083788422066000000, p 8600362047142311173000000, p 8458006984156623068000000,
  p 8315450955807572250000000, p 8172699026751788567000000, p 8029756265149227967000000, p 7886627742485496917000000,
  p 7743318533394381517000000, p 7599833715481738375000000, p 7456178369146524917000000, p 7312357577404790011000000,
  p 7168376425712182261000000, p 7024240001786364630000000, p 6879953395430116886000000, p 6735521698354520435000000,
  p 6590950004001026007000000, p 6446243407365244774000000, p 6301407004819813140000000, p 6156445893937156043000000,
  p 6011365173312808834000000, p 5866169942389056619000000, p 5720865301277692355000000, p 5575456350583458433000000,
  p 5429948191228325255000000, p 5284345924274186888000000, p 5138654650746986123000000, p 4992879471460830859000000,
  p 4847025486841466044000000, p 4701097796750216586000000, p 4555101500309456826000000, p 4409041695724982661000000,
  p 4262923480112671033000000, p 4116751949321147824000000, p 3970532197757900908000000, p 3824269318213967695000000,
  p 3677968401688795717000000, p 3531634537215375992000000, p 3385272811686903822000000, p 3238888309680765937000000,
  p 3092486113285572089000000, p 2946071301927081186000000, p 2799648952194017278000000, p 2653224137664800166000000,
  p 2506801928734503707000000, p 2360387392441326213000000, p 2213985592293632454000000, p 2067601588098103710000000,
  p 1921240435786485080000000, p 1774907187243770883000000, p 1628606890136575450000000, p 1482344587741034900000000,
  p 1336125318771251656000000, p 1189954117209411242000000, p 1043836012133179903000000, p 897776027546351028600000,
  p 751779182208405969400000, p 605850489464058593500000, p 459994957073843815900000, p 314217587045048630200000,
  p 168523375461756207900000, p 22917312316849703790000, m 122595618656532742000000, m 268010440153578139700000,
  m 413322181465344308500000, m 558525878645968411500000, m 703616574680244804800000, m 848589319650493211300000,
  m 993439170902219717200000, m 1138161193211061463000000, m 1282750458948161846000000, m 1427202048245250487000000,
  m 1571511049160075361000000, m 1715672557841153812000000, m 1859681678690775419000000, m 2003533524530585683000000,
  m 2147223216763767713000000, m 2290745885538263658000000, m 2434096669909839583000000, m 2577270718004019950000000,
  m 2720263187177549176000000, m 2863069244180643791000000, m 3005684065317124325000000, m 3148102836605065017000000,
  m 3290320753937273513000000, m 3432333023240669891000000, m 3574134860635235899000000, m 3715721492593151987000000,
  m 3857088156097276434000000, m 3998230098797715855000000, m 4139142579170927531000000, m 4279820866675360103000000,
  m 4420260241908030574000000, m 4560455996760779535000000, m 4700403434575827280000000, m 4840097870299543172000000,
  m 4979534630638556870000000, m 5118709054212478189000000, m 5257616491707528539000000, m 5396252306029749972000000,
  m 5534611872457287883000000, m 5672690578791775989000000, m 5810483825510545305000000, m 5947987025916703745000000,
  m 6085195606289405673000000, m 6222105006034032125000000, m 6358710677831066506000000, m 6495008087784452482000000,
  m 6630992715570114063000000, m 6766660054583568430000000, m 6902005612085633166000000, m 7037024909350550819000000,
  m 7171713481810510459000000, m 7306066879201033974000000, m 7440080665705905288000000, m 7573750420101347559000000,
  m 7707071735898306936000000, m 7840040221486904715000000, m 7972651500277500719000000, m 8104901210842443623000000,
  m 8236785007057479541000000, m 8368298558241969720000000, m 8499437549298223538000000, m 8630197680851192307000000,
  m 8760574669386950522000000, m 8890564247389896868000000, m 9020162163480669945000000, m 9149364182552525288000000,
  m 9278166085906966454000000, m 9406563671389389994000000, m 9534552753523904689000000, m 9662129163646185348000000,
  m 9789288750038257353000000, m 9916027378060134415000000, m 10042340930281837970000000, m 10168225306615021050000000,
  m 10293676424443655440000000, m 10418690218752931980000000, m 10543262642259925220000000, m 10667389665541107680000000,
  m 10791067277160270100000000, m 10914291483796063550000000, m 11037058310368117260000000, m 11159363800162545870000000,
  m 11281204014957378620000000, m 11402575035146784650000000, m 11523472959864026690000000, m 11643893907104978580000000,
  m 11763834013849951490000000, m 11883289436184881620000000, m 12002256349422184970000000, m 12120730948220930290000000,
  m 12238709446704852320000000, m 12356188078582262810000000, m 12473163097262646510000000, m 12589630775973656080000000,
  m 12705587407877751500000000, m 12821029306187068170000000, m 12935952804278073520000000, m 13050354255805821090000000,
  m 13164230034816528860000000, m 13277576535859859220000000, m 13390390174100881560000000]

/-- src/mid_qual_coeffs.h:4939-5429 -/
def row10 : List ℤ := [
  m 13502667385430386710000000, m 13614404626574821630000000, m 13725598375205712300000000, m 13836245130048096040000000,
  m 13946341410987076960000000, m 14055883759176284260000000, m 14164868737142320000000000, m 14273292928890577230000000,
  m 14381152940009604350000000, m 14488445397774701170000000, m 14595166951249929220000000, m 14701314271391159590000000,
  m 14806884051146291390000000, m 14911873005555603690000000, m 15016277871851646180000000, m 15120095409557443580000000,
  m 15223322400584228180000000, m 15325955649328726680000000, m 15427991982769078200000000, m 15529428250559758340000000,
  m 15630261325126577900000000, m 15730488101759938090000000, m 15830105498707419680000000, m 15929110457265908960000000,
  m 16027499941872788700000000, m 16125270940195172290000000, m 16222420463220536130000000, m 16318945545344101110000000,
  m 16414843244456817780000000, m 16510110642032116420000000, m 16604744843211546870000000, m 16698742976889873610000000,
  m 16792102195799459700000000, m 16884819676592489200000000, m 16976892619924632830000000, m 17068318250535619020000000,
  m 17159093817329933160000000, m 17249216593456684340000000, m 17338683876388427670000000, m 17427492987998723790000000,
  m 17515641274639733030000000, m 17603126107217845900000000, m 17689944881268990920000000, m 17776095017033140960000000,
  m 17861573959527751040000000, m 17946379178619957520000000, m 18030508169098524020000000, m 18113958450744711840000000,
  m 18196727568401422500000000, m 18278813092042787980000000, m 18360212616841852660000000, m 18440923763237550980000000,
  m 18520944177001136960000000, m 18600271529301375120000000, m 18678903516768461530000000, m 18756837861558125350000000,
  m 18834072311413541100000000, m 18910604639727025820000000, m 18986432645600969520000000, m 19061554153907114130000000,
  m 19135967015345530660000000, m 19209669106502687270000000, m 19282658329908053400000000, m 19354932614090065300000000,
  m 19426489913631449920000000, m 19497328209223372540000000, m 19567445507718141120000000, m 19636839842182035600000000,
  m 19705509271946426710000000, m 19773451882657763770000000, m 19840665786327676970000000, m 19907149121381122890000000,
  m 19972900052703707750000000, m 20037916771688615150000000, m 20102197496282458310000000, m 20165740471029227480000000,
  m 20228543967114979980000000, m 20290606282409945350000000, m 20351925741510814430000000, m 20412500695781540110000000,
  m 20472329523393124890000000, m 20531410629362943640000000, m 20589742445592727070000000, m 20647323430905552970000000,
  m 20704152071081925040000000, m 20760226878895431810000000, m 20815546394146546010000000, m 20870109183696056170000000,
  m 20923913841497502470000000, m 20976958988628627290000000, m 21029243273321330390000000, m 21080765370991925990000000,
  m 21131523984268912180000000, m 21181517843020924300000000, m 21230745704383383740000000, m 21279206352783942850000000,
  m 21326898599967107630000000, m 21373821285018277520000000, m 21419973274386355790000000, m 21465353461905350290000000,
  m 21509960768815530180000000, m 21553794143783153170000000, m 21596852562919464230000000, m 21639135029798459150000000,
  m 21680640575474363630000000, m 21721368258497068810000000, m 21761317164927677930000000, m 21800486408352526270000000,
  m 21838875129896170860000000, m 21876482498233713880000000, m 21913307709602376780000000, m 21949349987811037770000000,
  m 21984608584250397300000000, m 22019082777900846750000000, m 22052771875339844540000000, m 22085675210748775130000000,
  m 22117792145918153260000000, m 22149122070252054430000000, m 22179664400772146350000000, m 22209418582119826170000000,
  m 22238384086558246610000000, m 22266560413972857210000000, m 22293947091871230830000000, m 22320543675381859790000000,
  m 22346349747251928460000000, m 22371364917844582810000000, m 22395588825134295220000000, m 22419021134702343810000000,
  m 22441661539730747840000000, m 22463509760995158810000000, m 22484565546857390730000000, m 22504828673256260800000000,
  m 22524298943698044940000000, m 22542976189245767650000000, m 22560860268507679920000000, m 22577951067624332100000000,
  m 22594248500255462860000000, m 22609752507565247100000000, m 22624463058207089360000000, m 22638380148307154370000000,
  m 22651503801447165490000000, m 22663834068646089570000000, m 22675371028341138190000000, m 22686114786367516520000000,
  m 22696065475937523410000000, m 22705223257618534220000000, m 22713588319310046990000000, m 22721160876220086730000000,
  m 22727941170840218480000000, m 22733929472920026000000000, m 22739126079440438730000000, m 22743531314586284960000000,
  m 22747145529717762570000000, m 22749969103341143030000000, m 22752002441078507390000000, m 22753245975636361700000000,
  m 22753700166773853380000000, m 22753365501269436770000000, m 22752242492887091160000000, m 22750331682341331380000000,
  m 22747633637261722300000000, m 22744148952155849450000000, m 22739878248372050180000000, m 22734822174060642650000000,
  m 22728981404134877140000000, m 22722356640230357420000000, m 22714948610664139480000000, m 22706758070392317470000000,
  m 22697785800967363450000000, m 22688032610494190260000000, m 22677499333585284660000000, m 22666186831315209000000000,
  m 22654095991174023890000000, m 22641227727019843510000000, m 22627582979030596430000000, m 22613162713654912090000000,
  m 22597967923562039400000000, m 22581999627590772920000000, m 22565258870697987160000000, m 22547746723905668500000000,
  m 22529464284247603670000000, m 22510412674714919830000000, m 22490593044200726110000000, m 22470006567444224250000000,
  m 22448654444973518280000000, m 22426537903047952250000000, m 22403658193599379490000000, m 22380016594172529730000000,
  m 22355614407864803780000000, m 22330452963265048220000000, m 22304533614391240660000000, m 22277857740627963340000000,
  m 22250426746662367580000000, m 22222242062419735740000000, m 22193305142998099450000000, m 22163617468601966300000000,
  m 22133180544475088840000000, m 22101995900833070610000000, m 22070065092794095150000000, m 22037389700309713970000000,
  m 22003971328094597270000000, m 21969811605555136100000000, m 21934912186717586690000000, m 21899274750155534740000000,
  m 21862900998915957980000000, m 21825792660445118840000000, m 21787951486513402330000000, m 21749379253139272670000000,
  m 21710077760512508370000000, m 21670048832916934120000000, m 21629294318651792750000000, m 21587816089952759770000000,
  m 21545616042912319600000000, m 21502696097398629050000000, m 21459058196974585550000000, m 21414704308815448590000000,
  m 21369636423625923420000000, m 21323856555556262860000000, m 21277366742118275500000000, m 21230169044099630320000000,
  m 21182265545478098920000000, m 21133658353334982410000000, m 21084349597767289290000000, m 21034341431799899460000000,
  m 20983636031296486190000000, m 20932235594869827430000000, m 20880142343791312230000000, m 20827358521900183470000000,
  m 20773886395511240170000000, m 20719728253322598770000000, m 20664886406322326850000000, m 20609363187694323960000000,
  m 20553160952723675130000000, m 20496282078701612280000000, m 20438728964828803410000000, m 20380504032118849920000000,
  m 20321609723301058830000000, m 20262048502721757840000000, m 20201822856245631180000000, m 20140935291156542020000000,
  m 20079388336056634010000000, m 20017184540765894240000000, m 19954326476220536620000000, m 19890816734370597720000000,
  m 19826657928077206370000000, m 19761852691008885420000000, m 19696403677537641790000000, m 19630313562633470990000000,
  m 19563585041759663090000000, m 19496220830766072120000000, m 19428223665782552030000000, m 19359596303111542560000000,
  m 19290341519120061950000000, m 19220462110130613620000000, m 19149960892312814510000000, m 19078840701572404030000000,
  m 19007104393441404820000000, m 18934754842966920050000000, m 18861794944599139660000000, m 18788227612079141940000000,
  m 18714055778326185030000000, m 18639282395323635010000000, m 18563910434005369280000000, m 18487942884140941280000000,
  m 18411382754220124300000000, m 18334233071337274760000000, m 18256496881074838620000000, m 18178177247386344270000000,
  m 18099277252478684210000000, m 18019799996694549350000000, m 17939748598393149420000000, m 17859126193831245670000000,
  m 17777935937043725520000000, m 17696180999722765230000000, m 17613864571097145180000000, m 17530989857811533910000000,
  m 17447560083803447670000000, m 17363578490181899580000000, m 17279048335103991410000000, m 17193972893651550400000000,
  m 17108355457707110500000000, m 17022199335829827500000000, m 16935507853130023910000000, m 16848284351144045960000000,
  m 16760532187708607200000000, m 16672254736833747730000000, m 16583455388576456150000000, m 16494137548913268000000000,
  m 16404304639612149460000000, m 16313960098104235420000000, m 16223107377355772130000000, m 16131749945737763190000000,
  m 16039891286897086510000000, m 15947534899626383130000000, m 15854684297733109830000000, m 15761343009908598820000000,
  m 15667514579597356660000000, m 15573202564864045690000000, m 15478410538262061400000000, m 15383142086700763580000000,
  m 15287400811311925230000000, m 15191190327316663610000000, m 15094514263891457150000000, m 14997376264033551730000000,
  m 14899779984426524820000000, m 14801729095305252850000000, m 14703227280320144840000000, m 14604278236401483510000000,
  m 14504885673623285970000000, m 14405053315066491250000000, m 14304784896681785320000000, m 14204084167153263950000000,
  m 14102954887759458840000000, m 14001400832236089720000000, m 13899425786637718480000000, m 13797033549198742250000000,
  m 13694227930194185360000000, m 13591012751801278750000000, m 13487391847958381950000000, m 13383369064226064570000000,
  m 13278948257646423780000000, m 13174133296602242100000000, m 13068928060676273520000000, m 12963336440510097800000000,
  m 12857362337662376140000000, m 12751009664466865860000000, m 12644282343890953650000000, m 12537184309392608580000000,
  m 12429719504777997710000000, m 12321891884058694050000000, m 12213705411308265270000000, m 12105164060518669790000000,
  m 11996271815457346800000000, m 11887032669522174310000000, m 11777450625597978010000000, m 11667529695912141550000000,
  m 11557273901889507370000000, m 11446687274007792680000000, m 11335773851652608190000000, m 11224537682971611270000000,
  m 11112982824729451810000000, m 11001113342161996520000000, m 10888933308830105530000000, m 10776446806473577440000000,
  m 10663657924865144540000000, m 10550570761663505270000000, m 10437189422266625670000000, m 10323518019665431020000000,
  m 10209560674296083720000000, m 10095321513893095590000000, m 9980804673342068972000000, m 9866014294531775045000000,
  m 9750954526206979944000000, m 9635629523820216091000000, m 9520043449383654155000000, m 9404200471322067892000000,
  m 9288104764323130980000000, m 9171760509190053992000000, m 9055171892693024416000000, m 8938343107420297987000000,
  m 8821278351629404518000000, m 8703981829099321707000000, m 8586457748980202975000000, m 8468710325645341375000000,
  m 8350743778541955611000000, m 8232562332041785252000000, m 8114170215291913180000000, m 7995571662065858662000000,
  m 7876770910613678164000000, m 7757772203512596117000000, m 7638579787518150893000000, m 7519197913413848931000000,
  m 7399630835861967237000000, m 7279882813254146857000000, m 7159958107561304602000000, m 7039860984183864828000000,
  m 6919595711803034656000000, m 6799166562229660982000000, m 6678577810255433705000000, m 6557833733503068939000000,
  m 6436938612276165220000000, m 6315896729409391057000000, m 6194712370119691627000000, m 6073389821855109359000000,
  m 5951933374146112059000000, m 5830347318455689383000000, m 5708635948029338290000000, m 5586803557745648706000000,
  m 5464854443966910870000000, m 5342792904389175382000000, m 5220623237892694016000000, m 5098349744393057027000000,
  m 4975976724691116154000000, m 4853508480323891205000000, m 4730949313415542569000000, m 4608303526527789476000000,
  m 4485575422510628373000000, m 4362769304354342792000000, m 4239889475039071605000000, m 4116940237386972415000000,
  m 3993925893913327640000000, m 3870850746677485365000000, m 3747719097134599893000000, m 3624535245987407870000000,
  m 3501303493037245460000000, m 3378028137036475850000000, m 3254713475540381602000000, m 3131363804758847090000000,
  m 3007983419408793817000000, m 2884576612566757542000000, m 2761147675521031727000000, m 2637700897624235992000000,
  m 2514240566146805269000000, m 2390770966129234301000000, m 2267296380235498277000000, m 2143821088606640002000000,
  m 2020349368713863537000000, m 1896885495212083860000000, m 1773433739794856925000000, m 1649998371046929252000000,
  m 1526583654299577385000000, m 1403193851484911070000000, m 1279833220990185321000000, m 1156506017512916751000000,
  m 1033216491916293719000000, m 909968891083754133200000, m 786767457775237812200000, m 663616430482886110600000,
  m 540520043286712493500000, m 417482525711099813700000, m 294508102581541046600000, m 171600993881046985000000,
  m 48765414607025244130000, p 73994425370386588760000, p 196674321452247071400000, p 319270074451939809400000,
  p 441777490737218353700000, p 564192382372112740900000, p 686510567258407766000000, p 808727869275643732900000,
  p 930840118423333041600000, p 1052843150960382137000000, p 1174732809545360164000000, p 1296504943376712441000000,
  p 1418155408332052135000000, p 1539680067107132436000000, p 1661074789355097359000000, p 1782335451825100897000000,
  p 1903457938499860834000000, p 2024438140734280932000000, p 2145271957392683171000000, p 2265955294985793223000000,
  p 2386484067807952743000000, p 2506854198073739902000000, p 2627061616053086562000000, p 2747102260208499243000000,
  p 2866972077329447716000000, p 2986667022667534224000000, p 3106183060071405957000000, p 3225516162121221716000000,
  p 3344662310261458001000000, p 3463617494935885676000000, p 3582377715719659191000000, p 3700938981452131342000000,
  p 3819297310369545312000000, p 3937448730236663315000000, p 4055389278478044833000000, p 4173115002309503094000000,
  p 4290621958868744493000000, p 4407906215345009683000000, p 4524963849109518710000000, p 4641790947844548314000000,
  p 4758383609672180506000000, p 4874737943283089306000000, p 4990850068064676959000000, p 5106716114227768596000000,
  p 5222332222935020807000000, p 5337694546426706432000000, p 5452799248146997235000000, p 5567642502870082631000000,
  p 5682220496825196414000000, p 5796529427821185514000000, p 5910565505371439578000000, p 6024324950817197717000000,
  p 6137803997450883876000000, p 6250998890639326844000000, p 6363905887945945500000000, p 6476521259252390229000000,
  p 6588841286880223365000000, p 6700862265711889261000000, p 6812580503310372917000000]

/-- src/mid_qual_coeffs.h:5430-5920 -/
def row11 : List ℤ := [
  p 6923992320039829181000000, p 7035094049184498037000000, p 7145882037067385721000000, p 7256352643168840870000000,
  p 7366502240244394289000000, p 7476327214441089511000000, p 7585823965415458732000000, p 7694988906448703252000000,
  p 7803818464562471517000000, p 7912309080634149713000000, p 8020457209511236418000000, p 8128259320124913215000000,
  p 8235711895604218985000000, p 8342811433388119119000000, p 8449554445337934677000000, p 8555937457849266750000000,
  p 8661957011963006617000000, p 8767609663475579157000000, p 8872891983049285142000000, p 8977800556321715447000000,
  p 9082331984013739326000000, p 9186482882038946376000000, p 9290249881610300811000000, p 9393629629347328286000000,
  p 9496618787382900273000000, p 9599214033468504020000000, p 9701412061079843843000000, p 9803209579521523012000000,
  p 9904603314030183472000000, p 10005590005879088850000000, p 10106166412479968340000000, p 10206329307485342840000000,
  p 10306075480890136350000000, p 10405401739132754890000000, p 10504304905194470490000000, p 10602781818700179190000000,
  p 10700829336016515200000000, p 10798444330350324280000000, p 10895623691846675550000000, p 10992364327685596670000000,
  p 11088663162178357890000000, p 11184517136863534120000000, p 11279923210601896020000000, p 11374878359670622870000000,
  p 11469379577857480650000000, p 11563423876553820600000000, p 11657008284846196930000000, p 11750129849609441610000000,
  p 11842785635596934230000000, p 11934972725530991480000000, p 12026688220192656430000000, p 12117929238511298760000000,
  p 12208692917651904270000000, p 12298976413103951750000000, p 12388776898767345920000000, p 12478091567039259480000000,
  p 12566917628899908210000000, p 12655252313996907120000000, p 12743092870729756660000000, p 12830436566333537980000000,
  p 12917280686961558550000000, p 13003622537767206900000000, p 13089459442985555690000000, p 13174788746014302190000000,
  p 13259607809493258530000000, p 13343914015383652810000000, p 13427704765047286310000000, p 13510977479323324490000000,
  p 13593729598606446240000000, p 13675958582922320000000000, p 13757661912003631490000000, p 13838837085365183340000000,
  p 13919481622377948700000000, p 13999593062341872400000000, p 14079168964559662590000000, p 14158206908408197190000000,
  p 14236704493409569480000000, p 14314659339301793670000000, p 14392069086108910320000000, p 14468931394209308410000000,
  p 14545243944404330150000000, p 14621004437986043210000000, p 14696210596803344070000000, p 14770860163328682420000000,
  p 14844950900722724690000000, p 14918480592899055830000000, p 14991447044588135030000000, p 15063848081400146510000000,
  p 15135681549886611730000000, p 15206945317602889660000000, p 15277637273168276360000000, p 15347755326325764410000000,
  p 15417297408001476300000000, p 15486261470363150640000000, p 15554645486877308190000000, p 15622447452366756280000000,
  p 15689665383065799780000000, p 15756297316676215470000000, p 15822341312421609600000000, p 15887795451100937550000000,
  p 15952657835141513530000000, p 16016926588651381890000000, p 16080599857470748160000000, p 16143675809221991190000000,
  p 16206152633360126210000000, p 16268028541221682400000000, p 16329301766072758240000000, p 16389970563156549400000000,
  p 16450033209740210630000000, p 16509488005160419950000000, p 16568333270868800670000000, p 16626567350475789100000000,
  p 16684188609794495250000000, p 16741195436883415240000000, p 16797586242087901580000000, p 16853359458081723640000000,
  p 16908513539907247400000000, p 16963046965014924590000000, p 17016958233301859170000000, p 17070245867149870520000000,
  p 17122908411462738070000000, p 17174944433702186290000000, p 17226352523923491730000000, p 17277131294810527810000000,
  p 17327279381708960570000000, p 17376795442660086110000000, p 17425678158432610780000000, p 17473926232554230080000000,
  p 17521538391342437320000000, p 17568513383934409450000000, p 17614849982315630010000000, p 17660546981348671650000000,
  p 17705603198800531910000000, p 17750017475368886490000000, p 17793788674708242020000000, p 17836915683454905580000000,
  p 17879397411251149450000000, p 17921232790768421710000000, p 17962420777730282730000000, p 18002960350933752690000000,
  p 18042850512270655620000000, p 18082090286747471570000000, p 18120678722504640620000000, p 18158614890835377690000000,
  p 18195897886203193230000000, p 18232526826258508430000000, p 18268500851855180160000000, p 18303819127065659030000000,
  p 18338480839195151620000000, p 18372485198795487920000000, p 18405831439678020660000000, p 18438518818925365980000000,
  p 18470546616902918520000000, p 18501914137268885010000000, p 18532620706984179180000000, p 18562665676320977410000000,
  p 18592048418870795600000000, p 18620768331551421080000000, p 18648824834613511590000000, p 18676217371645945090000000,
  p 18702945409580482710000000, p 18729008438695769060000000, p 18754405972620319390000000, p 18779137548334885740000000,
  p 18803202726173785800000000, p 18826601089825825700000000, p 18849332246333685980000000, p 18871395826093408100000000,
  p 18892791482852378670000000, p 18913518893706800230000000, p 18933577759098377950000000, p 18952967802809899540000000,
  p 18971688771960589640000000, p 18989740437000020980000000, p 19007122591701584860000000, p 19023835053155271210000000,
  p 19039877661759029710000000, p 19055250281210224520000000, p 19069952798495593690000000, p 19083985123880552880000000,
  p 19097347190898013300000000, p 19110038956335936850000000, p 19122060400224648310000000, p 19133411525822603680000000,
  p 19144092359602113420000000, p 19154102951233872160000000, p 19163443373570666210000000, p 19172113722630616110000000,
  p 19180114117579225710000000, p 19187444700710817170000000, p 19194105637429275530000000, p 19200097116227918950000000,
  p 19205419348668425340000000, p 19210072569359300940000000, p 19214057035933426040000000, p 19217373029024466260000000,
  p 19220020852243158840000000, p 19222000832152332660000000, p 19223313318241296720000000, p 19223958682899385670000000,
  p 19223937321388936270000000, p 19223249651817233410000000, p 19221896115107897640000000, p 19219877174971197050000000,
  p 19217193317874005360000000, p 19213845053008663660000000, p 19209832912261207150000000, p 19205157450178825250000000,
  p 19199819243936436940000000, p 19193818893302815040000000, p 19187157020605447730000000, p 19179834270695250710000000,
  p 19171851310909884810000000, p 19163208831036910450000000, p 19153907543275752040000000, p 19143948182199093530000000,
  p 19133331504713541740000000, p 19122058290019547380000000, p 19110129339570288560000000, p 19097545477030481580000000,
  p 19084307548233578330000000, p 19070416421138887410000000, p 19055872985787827840000000, p 19040678154259107340000000,
  p 19024832860623577810000000, p 19008338060898161140000000, p 18991194732999087950000000, p 18973403876694279470000000,
  p 18954966513555243650000000, p 18935883686908190630000000, p 18916156461784051910000000, p 18895785924868388480000000,
  p 18874773184450115840000000, p 18853119370369753740000000, p 18830825633966794680000000, p 18807893148026454820000000,
  p 18784323106725852450000000, p 18760116725579152610000000, p 18735275241382191160000000, p 18709799912156540450000000,
  p 18683692017092669300000000, p 18656952856492360630000000, p 18629583751710643290000000, p 18601586045096873970000000,
  p 18572961099935315910000000, p 18543710300384610990000000, p 18513835051417213560000000, p 18483336778757342850000000,
  p 18452216928819202560000000, p 18420476968643621770000000, p 18388118385834456570000000, p 18355142688494422570000000,
  p 18321551405160136500000000, p 18287346084736182810000000, p 18252528296429020720000000, p 18217099629680082870000000,
  p 18181061694097881700000000, p 18144416119389886880000000, p 18107164555293563110000000, p 18069308671506675860000000,
  p 18030850157617187710000000, p 17991790723032315140000000, p 17952132096906863600000000, p 17911876028071305880000000,
  p 17871024284958746810000000, p 17829578655531582580000000, p 17787540947207362150000000, p 17744912986784371070000000,
  p 17701696620365876130000000, p 17657893713284376900000000, p 17613506150025076690000000, p 17568535834148808760000000,
  p 17522984688213890520000000, p 17476854653698165040000000, p 17430147690919502170000000, p 17382865778956729800000000,
  p 17335010915569010890000000, p 17286585117115130240000000, p 17237590418472250460000000, p 17188028872953804020000000,
  p 17137902552226802480000000, p 17087213546228732790000000, p 17035963963084176100000000, p 16984155929019893040000000,
  p 16931791588280228210000000, p 16878873103041758250000000, p 16825402653327124760000000, p 16771382436918245980000000,
  p 16716814669269542540000000, p 16661701583419855080000000, p 16606045429904445210000000, p 16549848476666111780000000,
  p 16493113008965654830000000, p 16435841329291912830000000, p 16378035757272001170000000, p 16319698629579305890000000,
  p 16260832299842511300000000, p 16201439138553579840000000, p 16141521532975169890000000, p 16081081887047054410000000,
  p 16020122621293191730000000, p 15958646172727197070000000, p 15896654994757501710000000, p 15834151557092765450000000,
  p 15771138345645533550000000, p 15707617862436695080000000, p 15643592625498400910000000, p 15579065168776929510000000,
  p 15514038042035082840000000, p 15448513810754528270000000, p 15382495056036201220000000, p 15315984374501892540000000,
  p 15248984378194626810000000, p 15181497694478435220000000, p 15113526965937800620000000, p 15045074850276909940000000,
  p 14976144020217871040000000, p 14906737163399163760000000, p 14836856982273168020000000, p 14766506194003043220000000,
  p 14695687530359989250000000, p 14624403737619277520000000, p 14552657576456077410000000, p 14480451821840861080000000,
  p 14407789262934773620000000, p 14334672702983880870000000, p 14261104959213150020000000, p 14187088862720730400000000,
  p 14112627258370971300000000, p 14037723004687061720000000, p 13962378973744209510000000, p 13886598051060940200000000,
  p 13810383135491578750000000, p 13733737139117130340000000, p 13656662987136036070000000, p 13579163617755168200000000,
  p 13501241982079872920000000, p 13422901044003308910000000, p 13344143780096254240000000, p 13264973179496191560000000,
  p 13185392243795869550000000, p 13105403986931225820000000, p 13025011435069955290000000, p 12944217626498819020000000,
  p 12863025611510594050000000, p 12781438452291538420000000, p 12699459222807381670000000, p 12617091008690000530000000,
  p 12534336907123081600000000, p 12451200026727450920000000, p 12367683487446800780000000, p 12283790420432282030000000,
  p 12199523967926905600000000, p 12114887283150374210000000, p 12029883530182385740000000, p 11944515883846899480000000,
  p 11858787529595177580000000, p 11772701663388706810000000, p 11686261491582377110000000, p 11599470230806806570000000,
  p 11512331107850251950000000, p 11424847359540871160000000, p 11337022232628404810000000, p 11248858983665488070000000,
  p 11160360878888374650000000, p 11071531194098510610000000, p 10982373214542677160000000, p 10892890234793124740000000,
  p 10803085558628395740000000, p 10712962498912291170000000, p 10622524377474254490000000, p 10531774524988393730000000,
  p 10440716280852486290000000, p 10349352993066857080000000, p 10257688018113997330000000, p 10165724720835619610000000,
  p 10073466474311695490000000, p 9980916659738693630000000, p 9888078666307097836000000, p 9794955891078819393000000,
  p 9701551738865299770000000, p 9607869622104001778000000, p 9513912960736174013000000, p 9419685182083433958000000,
  p 9325189720724135975000000, p 9230430018370516451000000, p 9135409523744803320000000, p 9040131692455122617000000,
  p 8944599986871668712000000, p 8848817876003325575000000, p 8752788835372109222000000, p 8656516346889436830000000,
  p 8560003898731726249000000, p 8463254985215442130000000, p 8366273106671916551000000, p 8269061769323144545000000,
  p 8171624485155785933000000, p 8073964771796700648000000, p 7976086152387346084000000, p 7877992155457846576000000,
  p 7779686314802221683000000, p 7681172169352324698000000, p 7582453263051854020000000, p 7483533144730685448000000,
  p 7384415367979182791000000, p 7285103491021882247000000, p 7185601076591062279000000, p 7085911691801206891000000,
  p 6986038908022328305000000, p 6885986300753385927000000, p 6785757449496574410000000, p 6685355937629942034000000,
  p 6584785352281750763000000, p 6484049284203445042000000, p 6383151327642865198000000, p 6282095080217611760000000,
  p 6180884142789266726000000, p 6079522119335117707000000, p 5978012616822295060000000, p 5876359245081048607000000,
  p 5774565616677745060000000, p 5672635346787597427000000, p 5570572053068606130000000, p 5468379355534291886000000,
  p 5366060876426498837000000, p 5263620240089391181000000, p 5161061072841650887000000, p 5058387002850427486000000,
  p 4955601660004180231000000, p 4852708675785660786000000, p 4749711683145209015000000, p 4646614316374858902000000,
  p 4543420210980151155000000, p 4440133003554318919000000, p 4336756331651733624000000, p 4233293833661081959000000,
  p 4129749148678431812000000, p 4026125916381596663000000, p 3922427776902741824000000, p 3818658370702809977000000,
  p 3714821338444885494000000, p 3610920320867558320000000, p 3506958958659539896000000, p 3402940892333166257000000,
  p 3298869762098176946000000, p 3194749207736021727000000, p 3090582868474330350000000, p 2986374382860920024000000,
  p 2882127388637794208000000, p 2777845522616391710000000, p 2673532420551809254000000, p 2569191717017110365000000,
  p 2464827045279071888000000, p 2360442037172083476000000, p 2256040322974148683000000, p 2151625531281681301000000,
  p 2047201288884499884000000, p 1942771220642053711000000, p 1838338949358669493000000, p 1733908095659088440000000,
  p 1629482277864633451000000, p 1525065111869564755000000, p 1420660211017043704000000, p 1316271185975206740000000,
  p 1211901644614462974000000, p 1107555191883890372000000, p 1003235429687791315000000, p 898945956763670629300000,
  p 794690368558542757500000, p 690472257107291103800000, p 586295210909978199400000, p 482162814809471531400000,
  p 378078649869653378500000, p 274046293254590382000000, p 170069318105520726000000, p 66151293420453946950000,
  m 37704216066775809580000, m 141493650007604052000000, m 245213452559730669100000, m 348860072506630193300000,
  m 452429963378705654600000, m 555919583572329120000000, m 659325396469881441300000, m 762643870559562178500000,
  m 865871479553802963000000, m 969004702508571153000000, m 1072040023942268756000000, m 1174973933954016935000000,
  m 1277802928340907159000000, m 1380523508717356471000000, m 1483132182631826399000000]

/-- src/mid_qual_coeffs.h:5921-6411 -/
def row12 : List ℤ := [
  m 1585625463684000062000000, m 1687999871642072462000000, m 1790251932559834992000000, m 1892378178892288251000000,
  m 1994375149612764072000000, m 2096239390327925105000000, m 2197967453393707884000000, m 2299555898030920028000000,
  m 2401001290439449664000000, m 2502300203913285833000000, m 2603449218955047537000000, m 2704444923389746902000000,
  m 2805283912478201067000000, m 2905962789030639652000000, m 3006478163520059400000000, m 3106826654194166752000000,
  m 3207004887188090632000000, m 3307009496636714903000000, m 3406837124785505946000000, m 3506484422102764450000000,
  m 3605948047389703585000000, m 3705224667891401057000000, m 3804310959407415475000000, m 3903203606400888759000000,
  m 4001899302108397061000000, m 4100394748649457792000000, m 4198686657134403401000000, m 4296771747773732268000000,
  m 4394646749985233088000000, m 4492308402501929768000000, m 4589753453479691533000000, m 4686978660603294787000000,
  m 4783980791193223094000000, m 4880756622311885166000000, m 4977302940869038350000000, m 5073616543726759340000000,
  m 5169694237804412298000000, m 5265532840183511157000000, m 5361129178210854128000000, m 5456480089602535125000000,
  m 5551582422547319401000000, m 5646433035808625343000000, m 5741028798827675465000000, m 5835366591824510223000000,
  m 5929443305899749495000000, m 6023255843135806760000000, m 6116801116697255861000000, m 6210076050930149992000000,
  m 6303077581462931435000000, m 6395802655304913542000000, m 6488248230944782674000000, m 6580411278449150442000000,
  m 6672288779560638441000000, m 6763877727794473729000000, m 6855175128536194519000000, m 6946177999137275946000000,
  m 7036883369011399415000000, m 7127288279730179844000000, m 7217389785117512072000000, m 7307184951344372625000000,
  m 7396670857022979648000000, m 7485844593300210355000000, m 7574703263949853632000000, m 7663243985466459442000000,
  m 7751463887156488132000000, m 7839360111229863939000000, m 7926929812891069654000000, m 8014170160430055673000000,
  m 8101078335311441211000000, m 8187651532264892534000000, m 8273886959373276395000000, m 8359781838161519513000000,
  m 8445333403684772422000000, m 8530538904615249732000000, m 8615395603329398244000000, m 8699900775994435370000000,
  m 8784051712653980284000000, m 8867845717313183745000000, m 8951280108023566481000000, m 9034352216967685839000000,
  m 9117059390542067709000000, m 9199398989440702237000000, m 9281368388737946257000000, m 9362964977969755187000000,
  m 9444186161216075459000000, m 9525029357180981801000000, m 9605491999273423412000000, m 9685571535687232878000000,
  m 9765265429479868739000000, m 9844571158651350615000000, m 9923486216222545536000000, m 10002008110312609470000000,
  m 10080134364215643030000000, m 10157862516477461630000000, m 10235190120971448050000000, m 10312114746973537540000000,
  m 10388633979236941080000000, m 10464745418066643060000000, m 10540446679392134750000000, m 10615735394841190400000000,
  m 10690609211811493910000000, m 10765065793542614310000000, m 10839102819187420790000000, m 10912717983882420580000000,
  m 10985908998817212060000000, m 11058673591304801760000000, m 11131009504849718320000000, m 11202914499216242580000000,
  m 11274386350495858860000000, m 11345422851174659370000000, m 11416021810199052100000000, m 11486181053041938720000000,
  m 11555898421767496140000000, m 11625171775095730770000000, m 11693998988466697970000000, m 11762377954103163740000000,
  m 11830306581073557830000000, m 11897782795354062970000000, m 11964804539889994580000000, m 12031369774655903750000000,
  m 12097476476716776530000000, m 12163122640286898320000000, m 12228306276788544760000000, m 12293025414910601490000000,
  m 12357278100666259370000000, m 12421062397449363430000000, m 12484376386091561650000000, m 12547218164917222850000000,
  m 12609585849798899200000000, m 12671477574211839970000000, m 12732891489287363750000000, m 12793825763866185570000000,
  m 12854278584550963420000000, m 12914248155758128320000000, m 12973732699768713430000000, m 13032730456779209260000000,
  m 13091239684951499340000000, m 13149258660461770820000000, m 13206785677549133520000000, m 13263819048563933730000000,
  m 13320357104014333290000000, m 13376398192613559930000000, m 13431940681325324140000000, m 13486982955409267120000000,
  m 13541523418465787820000000, m 13595560492479799590000000, m 13649092617863662830000000, m 13702118253500490670000000,
  m 13754635876785693830000000, m 13806643983668201100000000, m 13858141088691176830000000, m 13909125725032145050000000,
  m 13959596444541960000000000, m 14009551817783495730000000, m 14058990434069789170000000, m 14107910901500915130000000,
  m 14156311847000991460000000, m 14204191916353687070000000, m 14251549774237695300000000, m 14298384104261258400000000,
  m 14344693608996181980000000, m 14390477010010390560000000, m 14435733047901425090000000, m 14480460482327570800000000,
  m 14524658092039226250000000, m 14568324674909384140000000, m 14611459047963555260000000, m 14654060047408530230000000,
  m 14696126528661356340000000, m 14737657366376510220000000, m 14778651454473323850000000, m 14819107706162364460000000,
  m 14859025053970884720000000, m 14898402449768092390000000, m 14937238864789380980000000, m 14975533289659960150000000,
  m 15013284734417766190000000, m 15050492228535768820000000, m 15087154820943677810000000, m 15123271580048622610000000,
  m 15158841593755426060000000, m 15193863969486128690000000, m 15228337834199009990000000, m 15262262334406405740000000,
  m 15295636636192225240000000, m 15328459925228909990000000, m 15360731406793455560000000, m 15392450305782559230000000,
  m 15423615866727462260000000, m 15454227353808155580000000, m 15484284050866287810000000, m 15513785261418201740000000,
  m 15542730308666546580000000, m 15571118535511629940000000, m 15598949304562076050000000, m 15626221998144628620000000,
  m 15652936018313176600000000, m 15679090786857471230000000, m 15704685745310822950000000, m 15729720354957184290000000,
  m 15754194096837592640000000, m 15778106471755905250000000, m 15801457000283902770000000, m 15824245222765445650000000,
  m 15846470699320464040000000, m 15868133009847584100000000, m 15889231754026691970000000, m 15909766551320432550000000,
  m 15929737040975028290000000, m 15949142882020733710000000, m 15967983753271242090000000, m 15986259353322436470000000,
  m 16003969400550880490000000, m 16021113633111004610000000, m 16037691808932077330000000, m 16053703705714222200000000,
  m 16069149120924015180000000, m 16084027871789131210000000, m 16098339795292366390000000, m 16112084748165198670000000,
  m 16125262606880370190000000, m 16137873267643976920000000, m 16149916646386878320000000, m 16161392678755156370000000,
  m 16172301320100463530000000, m 16182642545469066300000000, m 16192416349590649240000000, m 16201622746866130300000000,
  m 16210261771355191640000000, m 16218333476762686330000000, m 16225837936424666870000000, m 16232775243293740690000000,
  m 16239145509923638010000000, m 16244948868453106680000000, m 16250185470589137430000000, m 16254855487589748440000000,
  m 16258959110245829740000000, m 16262496548862363090000000, m 16265468033239024320000000, m 16267873812650296420000000,
  m 16269714155824510640000000, m 16270989350922662050000000, m 16271699705516239760000000, m 16271845546564658170000000,
  m 16271427220391678630000000, m 16270445092661699190000000, m 16268899548354785050000000, m 16266790991741563590000000,
  m 16264119846357127240000000, m 16260886554974453980000000, m 16257091579577120230000000, m 16252735401331291910000000,
  m 16247818520557396480000000, m 16242341456700511160000000, m 16236304748300848380000000, m 16229708952963103200000000,
  m 16222554647325297670000000, m 16214842427026952140000000, m 16206572906676739580000000, m 16197746719819338530000000,
  m 16188364518901880020000000, m 16178426975239367650000000, m 16167934778979885930000000, m 16156888639068903160000000,
  m 16145289283213137140000000, m 16133137457843640260000000, m 16120433928078235770000000, m 16107179477683569030000000,
  m 16093374909036187170000000, m 16079021043083435020000000, m 16064118719303119300000000, m 16048668795663294240000000,
  m 16032672148580798250000000, m 16016129672879568510000000, m 15999042281748088180000000, m 15981410906696486700000000,
  m 15963236497512765800000000, m 15944520022218598710000000, m 15925262467024362680000000, m 15905464836283911280000000,
  m 15885128152448340500000000, m 15864253456019182520000000, m 15842841805501377270000000, m 15820894277355473930000000,
  m 15798411965948788020000000, m 15775395983506839550000000, m 15751847460063340970000000, m 15727767543410195450000000,
  m 15703157399046693830000000, m 15678018210127955130000000, m 15652351177413096480000000, m 15626157519212795920000000,
  m 15599438471335958300000000, m 15572195287036053390000000, m 15544429236957028880000000, m 15516141609078340500000000,
  m 15487333708659567490000000, m 15458006858184374090000000, m 15428162397304212570000000, m 15397801682781037460000000,
  m 15366926088429613830000000, m 15335537005059541110000000, m 15303635840416383520000000, m 15271224019122222810000000,
  m 15238302982616113920000000, m 15204874189093343580000000, m 15170939113444774010000000, m 15136499247195246350000000,
  m 15101556098441453260000000, m 15066111191789561750000000, m 15030166068292105660000000, m 14993722285384212050000000,
  m 14956781416819484030000000, m 14919345052605488200000000, m 14881414798938506420000000, m 14842992278137529670000000,
  m 14804079128578480700000000, m 14764677004627116750000000, m 14724787576571763890000000, m 14684412530555905620000000,
  m 14643553568509288380000000, m 14602212408079785070000000, m 14560390782563662620000000, m 14518090440835863460000000,
  m 14475313147279716270000000, m 14432060681716535680000000, m 14388334839333638200000000, m 14344137430613046820000000,
  m 14299470281259283110000000, m 14254335232126408290000000, m 14208734139144828250000000, m 14162668873247826270000000,
  m 14116141320297070570000000, m 14069153381008297000000000, m 14021706970876049790000000, m 13973804020097971290000000,
  m 13925446473499044840000000, m 13876636290455003280000000, m 13827375444815204890000000, m 13777665924825354890000000,
  m 13727509733049932110000000, m 13676908886293239960000000, m 13625865415521326570000000, m 13574381365782253390000000,
  m 13522458796126823540000000, m 13470099779528451470000000, m 13417306402802479240000000, m 13364080766525208290000000,
  m 13310424984953207060000000, m 13256341185940555970000000, m 13201831510857174950000000, m 13146898114506257520000000,
  m 13091543165041134160000000, m 13035768843881575390000000, m 12979577345630452160000000, m 12922970877988942600000000,
  m 12865951661672196670000000, m 12808521930324317380000000, m 12750683930432495440000000, m 12692439921241674760000000,
  m 12633792174668069530000000, m 12574742975212393340000000, m 12515294619873015490000000, m 12455449418058702620000000,
  m 12395209691500687350000000, m 12334577774164424620000000, m 12273556012161330670000000, m 12212146763659887170000000,
  m 12150352398796020190000000, m 12088175299584188670000000, m 12025617859826705220000000, m 11962682485023971160000000,
  m 11899371592283646340000000, m 11835687610229439150000000, m 11771632978910137600000000, m 11707210149707722790000000,
  m 11642421585245284550000000, m 11577269759294661270000000, m 11511757156684045140000000, m 11445886273204813540000000,
  m 11379659615517834920000000, m 11313079701060485900000000, m 11246149057952254530000000, m 11178870224900378310000000,
  m 11111245751105731930000000, m 11043278196167318620000000, m 10974970129987606310000000, m 10906324132676897470000000,
  m 10837342794457211630000000, m 10768028715566500820000000, m 10698384506162608370000000, m 10628412786225869410000000,
  m 10558116185462613350000000, m 10487497343208059330000000, m 10416558908328718900000000, m 10345303539124342530000000,
  m 10273733903230511390000000, m 10201852677519707840000000, m 10129662548003270580000000, m 10057166209732430400000000,
  m 9984366366699030243000000, m 9911265731736607770000000, m 9837867026420765021000000, m 9764172980969043625000000,
  m 9690186334141153920000000, m 9615909833139141619000000, m 9541346233506057400000000, m 9466498299025639593000000,
  m 9391368801621658574000000, m 9315960521256490962000000, m 9240276245829443999000000, m 9164318771075860570000000,
  m 9088090900464562347000000, m 9011595445096541937000000, m 8934835223602374810000000, m 8857813062039695401000000,
  m 8780531793790995881000000, m 8702994259460694604000000, m 8625203306771899239000000, m 8547161790463494307000000,
  m 8468872572186926864000000, m 8390338520402541161000000, m 8311562510275666976000000, m 8232547423573250908000000,
  m 8153296148559580417000000, m 8073811579891891632000000, m 7994096618516560032000000, m 7914154171564033446000000,
  m 7833987152244703545000000, m 7753598479743899555000000, m 7672991079116803920000000, m 7592167881183427801000000,
  m 7511131822424126948000000, m 7429885844873071465000000, m 7348432896013512745000000, m 7266775928672270651000000,
  m 7184917900913851199000000, m 7102861775934335258000000, m 7020610521955991494000000, m 6938167112121049716000000,
  m 6855534524385129003000000, m 6772715741411793403000000, m 6689713750465358169000000, m 6606531543305180915000000,
  m 6523172116078787032000000, m 6439638469215128690000000, m 6355933607317943573000000, m 6272060539059686086000000,
  m 6188022277073482701000000, m 6103821837846914837000000, m 6019462241615114798000000, m 5934946512253571130000000,
  m 5850277677170630415000000, m 5765458767201120556000000, m 5680492816498221992000000, m 5595382862427049353000000,
  m 5510131945456873959000000, m 5424743109053587441000000, m 5339219399572860125000000, m 5253563866152425113000000,
  m 5167779560604406595000000, m 5081869537308088790000000, m 4995836853102523546000000, m 4909684567178897695000000,
  m 4823415740972634112000000, m 4737033438056455562000000, m 4650540724032582035000000, m 4563940666424741617000000,
  m 4477236334571446826000000, m 4390430799517563119000000, m 4303527133907454269000000, m 4216528411877203987000000,
  m 4129437708946700515000000, m 4042258101912808016000000, m 3954992668741562183000000, m 3867644488460480773000000,
  m 3780216641051363773000000, m 3692712207343115671000000, m 3605134268904144033000000, m 3517485907934766315000000,
  m 3429770207160556458000000, m 3341990249724780763000000, m 3254149119080950846000000, m 3166249898886402698000000,
  m 3078295672894431571000000, m 2990289524848022823000000, m 2902234538372582256000000, m 2814133796868923624000000,
  m 2725990383406524595000000, m 2637807380617601932000000, m 2549587870589224703000000]

/-- src/mid_qual_coeffs.h:6412-6902 -/
def row13 : List ℤ := [
  m 2461334934757474033000000, m 2373051653801136647000000, m 2284741107535107410000000, m 2196406374803828304000000,
  m 2108050533375849765000000, m 2019676659836925313000000, m 1931287829484806644000000, m 1842887116223071615000000,
  m 1754477592455084937000000, m 1666062328979006635000000, m 1577644394882002105000000, m 1489226857434644948000000,
  m 1400812781985787949000000, m 1312405231858214697000000, m 1224007268242254627000000, m 1135621950092263396000000,
  m 1047252334020938114000000, m 958901474195545419500000, m 870572422233192974800000, m 782268227096381439300000,
  m 693991934989016904400000, m 605746589253237780800000, m 517535230264374907100000, m 429360895328097084400000,
  m 341226618577098318600000, m 253135430867633545100000, m 165090359676124638200000, m 77094428997016883120000,
  p 10849340760781744580000, p 98737932875673478760000, p 186568334416019581800000, p 274337536342589359100000,
  p 362042533609859993800000, p 449680325268067625000000, p 537247914564947565300000, p 624742309046841790900000,
  p 712160520659595717500000, p 799499565849658535100000, p 886756465665085747600000, p 973928245855342693100000,
  p 1061011936971860935000000, p 1148004574468343116000000, p 1234903198799802660000000, p 1321704855522920453000000,
  p 1408406595394625597000000, p 1495005474471442809000000, p 1581498554208609969000000, p 1667882901558024938000000,
  p 1754155589066851801000000, p 1840313694975782973000000, p 1926354303316628888000000, p 2012274504009623193000000,
  p 2098071392960927217000000, p 2183742072159911961000000, p 2269283649775279132000000, p 2354693240251814253000000,
  p 2439967964406884130000000, p 2525104949525616791000000, p 2610101329457301805000000, p 2694954244710039398000000,
  p 2779660842546052661000000, p 2864218277076647622000000, p 2948623709356558344000000, p 3032874307477366558000000,
  p 3116967246662576217000000, p 3200899709360450259000000, p 3284668885337120592000000, p 3368271971769712381000000,
  p 3451706173339270586000000, p 3534968702322395431000000, p 3618056778683586064000000, p 3700967630167094607000000,
  p 3783698492387607953000000, p 3866246608922008134000000, p 3948609231399311664000000, p 4030783619591324016000000,
  p 4112767041502787130000000, p 4194556773460918035000000, p 4276150100204033702000000, p 4357544314971672529000000,
  p 4438736719592482373000000, p 4519724624572392206000000, p 4600505349182682294000000, p 4681076221547825385000000,
  p 4761434578731930586000000, p 4841577766826405012000000, p 4921503141035617895000000, p 5001208065763321046000000,
  p 5080689914698616541000000, p 5159946070900697096000000, p 5238973926884092983000000, p 5317770884703398523000000,
  p 5396334356037289087000000, p 5474661762272099198000000, p 5552750534585431871000000, p 5630598114029463502000000,
  p 5708201951612938176000000, p 5785559508383787339000000, p 5862668255511091150000000, p 5939525674366003330000000,
  p 6016129256603351683000000, p 6092476504241727681000000, p 6168564929743899569000000, p 6244392056096888070000000,
  p 6319955416890802626000000, p 6395252556398078360000000, p 6470281029652157068000000, p 6545038402525452624000000,
  p 6619522251806895727000000, p 6693730165279313839000000, p 6767659741796532707000000, p 6841308591359330366000000,
  p 6914674335191608838000000, p 6987754605816167731000000, p 7060547047129256577000000, p 7133049314475884382000000,
  p 7205259074723411802000000, p 7277174006335595212000000, p 7348791799446125102000000, p 7420110155931267625000000,
  p 7491126789481819190000000, p 7561839425676039443000000, p 7632245802050555486000000, p 7702343668171306862000000,
  p 7772130785704297988000000, p 7841604928486036602000000, p 7910763882592488153000000, p 7979605446409019850000000,
  p 8048127430698517187000000, p 8116327658669793624000000, p 8184203966045732262000000, p 8251754201130034536000000,
  p 8318976224874201353000000, p 8385867910944212397000000, p 8452427145786077858000000, p 8518651828690841990000000,
  p 8584539871860284027000000, p 8650089200470825399000000, p 8715297752737365816000000, p 8780163479976794971000000,
  p 8844684346671193714000000, p 8908858330529675212000000, p 8972683422551013671000000, p 9036157627084373534000000,
  p 9099278961890664916000000, p 9162045458202995249000000, p 9224455160786283053000000, p 9286506127996850893000000,
  p 9348196431841405973000000, p 9409524158035389302000000, p 9470487406060615343000000, p 9531084289222890860000000,
  p 9591312934708976293000000, p 9651171483642561819000000, p 9710658091140243406000000, p 9769770926367125907000000,
  p 9828508172590949901000000, p 9886868027237049467000000, p 9944848701941561356000000, p 10002448422604755600000000,
  p 10059665429443899460000000, p 10116497977045392840000000, p 10172944334415789940000000, p 10229002785033742070000000,
  p 10284671626900108650000000, p 10339949172587873870000000, p 10394833749291683410000000, p 10449323698877138400000000,
  p 10503417377928642510000000, p 10557113157797561390000000, p 10610409424649658650000000, p 10663304579511442490000000,
  p 10715797038316996270000000, p 10767885231952985940000000, p 10819567606304257220000000, p 10870842622298423210000000,
  p 10921708755949548210000000, p 10972164498401954650000000, p 11022208355973135000000000, p 11071838850195896840000000,
  p 11121054517860532240000000, p 11169853911055750360000000, p 11218235597209566530000000, p 11266198159129488940000000,
  p 11313740195042212500000000, p 11360860318632115890000000, p 11407557159080514850000000, p 11453829361103095780000000,
  p 11499675584987323340000000, p 11545094506629284200000000, p 11590084817570039940000000, p 11634645225030999790000000,
  p 11678774451949374900000000, p 11722471237012345450000000, p 11765734334691262470000000, p 11808562515275029120000000,
  p 11850954564902808910000000, p 11892909285596237750000000, p 11934425495291419230000000, p 11975502027869745420000000,
  p 12016137733188294450000000, p 12056331477110274890000000, p 12096082141534132690000000, p 12135388624422233090000000,
  p 12174249839829317040000000, p 12212664717930152640000000, p 12250632205046442510000000, p 12288151263673640840000000,
  p 12325220872506589130000000, p 12361840026464948960000000, p 12398007736718195950000000, p 12433723030709446090000000,
  p 12468984952179384610000000, p 12503792561189139980000000, p 12538144934142861350000000, p 12572041163809466800000000,
  p 12605480359343911030000000, p 12638461646308185930000000, p 12670984166691070390000000, p 12703047078927873210000000,
  p 12734649557919518540000000, p 12765790795050611230000000, p 12796469998207571710000000, p 12826686391795561610000000,
  p 12856439216755341860000000, p 12885727730579178350000000, p 12914551207326499530000000, p 12942908937638306770000000,
  p 12970800228752110350000000, p 12998224404515236470000000, p 13025180805397978260000000, p 13051668788506195010000000,
  p 13077687727593375470000000, p 13103237013071806010000000, p 13128316052023424750000000, p 13152924268210151870000000,
  p 13177061102083333440000000, p 13200726010792857360000000, p 13223918468195540800000000, p 13246637964863097750000000,
  p 13268884008089228830000000, p 13290656121896659080000000, p 13311953847042673480000000, p 13332776741025210990000000,
  p 13353124378087584750000000, p 13372996349222674920000000, p 13392392262176885600000000, p 13411311741453381740000000,
  p 13429754428314413790000000, p 13447719980783692450000000, p 13465208073647519720000000, p 13482218398455789870000000,
  p 13498750663522299940000000, p 13514804593924357660000000, p 13530379931501860390000000, p 13545476434855898560000000,
  p 13560093879346750420000000, p 13574232057091005850000000, p 13587890776958634620000000, p 13601069864569071200000000,
  p 13613769162286815450000000, p 13625988529216502550000000, p 13637727841197429950000000, p 13648986990797350520000000,
  p 13659765887305923980000000, p 13670064456727261050000000, p 13679882641772342710000000, p 13689220401850343140000000,
  p 13698077713059924820000000, p 13706454568179371470000000, p 13714350976656752150000000, p 13721766964599068850000000,
  p 13728702574760972070000000, p 13735157866532938730000000, p 13741132915928915700000000, p 13746627815573286830000000,
  p 13751642674687277950000000, p 13756177619074884750000000, p 13760232791108269880000000, p 13763808349712384690000000,
  p 13766904470349169280000000, p 13769521345001178510000000, p 13771659182154748210000000, p 13773318206782366940000000,
  p 13774498660324603630000000, p 13775200800671568570000000, p 13775424902143651100000000, p 13775171255471797480000000,
  p 13774440167777268420000000, p 13773231962550666270000000, p 13771546979630606630000000, p 13769385575181718530000000,
  p 13766748121672162460000000, p 13763635007850473500000000, p 13760046638722073230000000, p 13755983435524929760000000,
  p 13751445835704968060000000, p 13746434292890801970000000, p 13740949276867787940000000, p 13734991273551874070000000,
  p 13728560784962469050000000, p 13721658329195179220000000, p 13714284440393742500000000, p 13706439668721542500000000,
  p 13698124580332470340000000, p 13689339757341429170000000, p 13680085797794122250000000, p 13670363315636462760000000,
  p 13660172940683206620000000, p 13649515318586470660000000, p 13638391110803237820000000, p 13626800994562725260000000,
  p 13614745662832944060000000, p 13602225824286974520000000, p 13589242203268457260000000, p 13575795539756884900000000,
  p 13561886589332047130000000, p 13547516123138087300000000, p 13532684927847211940000000, p 13517393805622557320000000,
  p 13501643574080792260000000, p 13485435066254141540000000, p 13468769130551755400000000, p 13451646630720938410000000,
  p 13434068445807377520000000, p 13416035470115267660000000, p 13397548613166681070000000, p 13378608799660690260000000,
  p 13359216969431562950000000, p 13339374077406977730000000, p 13319081093565457440000000, p 13298339002893174580000000,
  p 13277148805340610940000000, p 13255511515778396760000000, p 13233428163952884460000000, p 13210899794441241860000000,
  p 13187927466605704060000000, p 13164512254547891190000000, p 13140655247062232870000000, p 13116357547588969320000000,
  p 13091620274166887100000000, p 13066444559385352250000000, p 13040831550335902840000000, p 13014782408563536210000000,
  p 12988298310017271090000000, p 12961380445000456400000000, p 12934030018120584030000000, p 12906248248238355590000000,
  p 12878036368416686740000000, p 12849395625869196310000000, p 12820327281907777790000000, p 12790832611890293890000000,
  p 12760912905167516580000000, p 12730569465029720200000000, p 12699803608652571880000000, p 12668616667043075890000000,
  p 12637009984984631450000000, p 12604984920981582300000000, p 12572542847203984840000000, p 12539685149430941650000000,
  p 12506413226994519610000000, p 12472728492722538750000000, p 12438632372881012340000000, p 12404126307116427470000000,
  p 12369211748397640480000000, p 12333890162956769740000000, p 12298163030230190720000000, p 12262031842799225870000000,
  p 12225498106329850750000000, p 12188563339512329190000000, p 12151229074000669680000000, p 12113496854350978490000000,
  p 12075368237960177120000000, p 12036844795003855820000000, p 11997928108373698620000000, p 11958619773614771390000000,
  p 11918921398862273790000000, p 11878834604777826350000000, p 11838361024485344680000000, p 11797502303506840830000000,
  p 11756260099697466580000000, p 11714636083180178520000000, p 11672631936280326860000000, p 11630249353459640520000000,
  p 11587490041249702210000000, p 11544355718185433930000000, p 11500848114737810550000000, p 11456968973246470930000000,
  p 11412720047851862560000000, p 11368103104426856980000000, p 11323119920508389540000000, p 11277772285228431300000000,
  p 11232061999244509830000000, p 11185990874670212820000000, p 11139560735005155440000000, p 11092773415064679020000000,
  p 11045630760908789830000000, p 10998134629771491590000000, p 10950286889989207380000000, p 10902089420928873580000000,
  p 10853544112916172630000000, p 10804652867162752720000000, p 10755417595693745820000000, p 10705840221274593590000000,
  p 10655922677337522840000000, p 10605666907907752160000000, p 10555074867529930930000000, p 10504148521193055340000000,
  p 10452889844256121540000000, p 10401300822373192590000000, p 10349383451417969170000000, p 10297139737407963110000000,
  p 10244571696429000470000000, p 10191681354558477370000000, p 10138470747789229960000000, p 10084941921952550810000000,
  p 10031096932640865340000000, p 9976937845130687613000000, p 9922466734304658323000000, p 9867685684573565541000000,
  p 9812596789797962960000000, p 9757202153210223564000000, p 9701503887334787454000000, p 9645504113909623978000000,
  p 9589204963806855983000000, p 9532608576953021523000000, p 9475717102248964324000000, p 9418532697490072936000000,
  p 9361057529285430473000000, p 9303293772977457021000000, p 9245243612560884172000000, p 9186909240601313226000000,
  p 9128292858154217482000000, p 9069396674683000842000000, p 9010222907977032125000000, p 8950773784069523259000000,
  p 8891051537155341550000000, p 8831058409508223475000000, p 8770796651397756022000000, p 8710268521006621703000000,
  p 8649476284347154889000000, p 8588422215177611910000000, p 8527108594918893919000000, p 8465537712570032902000000,
  p 8403711864624565861000000, p 8341633354985856022000000, p 8279304494882492108000000, p 8216727602783474235000000,
  p 8153905004313804009000000, p 8090839032168435294000000, p 8027532026027387260000000, p 7963986332470307516000000,
  p 7900204304890558193000000, p 7836188303409076517000000, p 7771940694788673394000000, p 7707463852347639852000000,
  p 7642760155872944071000000, p 7577831991534224668000000, p 7512681751796333740000000, p 7447311835332892128000000,
  p 7381724646939077060000000, p 7315922597444000398000000, p 7249908103623524912000000, p 7183683588113070999000000,
  p 7117251479319094618000000, p 7050614211331647681000000, p 6983774223836457934000000, p 6916733962026669694000000,
  p 6849495876514232438000000, p 6782062423242072625000000, p 6714436063394874261000000, p 6646619263310956684000000,
  p 6578614494393243348000000, p 6510424233020035457000000, p 6442050960456524589000000, p 6373497162765302641000000,
  p 6304765330717023580000000, p 6235857959701086861000000, p 6166777549636329528000000, p 6097526604881391317000000,
  p 6028107634144600109000000, p 5958523150394828827000000, p 5888775670771299355000000, p 5818867716493412480000000,
  p 5748801812771252642000000, p 5678580488714787301000000, p 5608206277244285817000000, p 5537681714999733926000000,
  p 5467009342250256886000000, p 5396191702804154985000000, p 5325231343918205261000000]

/-- src/mid_qual_coeffs.h:6903-7393 -/
def row14 : List ℤ := [
  p 5254130816206915508000000, p 5182892673552050647000000, p 5111519473012162557000000, p 5040013774731693166000000,
  p 4968378141849874585000000, p 4896615140410511338000000, p 4824727339270694880000000, p 4752717310010077557000000,
  p 4680587626839689472000000, p 4608340866511101419000000, p 4535979608225580023000000, p 4463506433542909803000000,
  p 4390923926289986255000000, p 4318234672470317066000000, p 4245441260172636011000000, p 4172546279479466547000000,
  p 4099552322376659452000000, p 4026461982661497588000000, p 3953277855852197105000000, p 3880002539096428105000000,
  p 3806638631079976680000000, p 3733188731936024941000000, p 3659655443153816533000000, p 3586041367487296117000000,
  p 3512349108864200754000000, p 3438581272295084500000000, p 3364740463782081494000000, p 3290829290227577537000000,
  p 3216850359343675740000000, p 3142806279560935324000000, p 3068699659937129069000000, p 2994533110066895879000000,
  p 2920309239990162564000000, p 2846030660101848877000000, p 2771699981060818819000000, p 2697319813698906103000000,
  p 2622892768930282659000000, p 2548421457661428219000000, p 2473908490699426328000000, p 2399356478662039317000000,
  p 2324768031887311862000000, p 2250145760342964641000000, p 2175492273535773683000000, p 2100810180421906412000000,
  p 2026102089316008260000000, p 1951370607801693538000000, p 1876618342641225975000000, p 1801847899685298784000000,
  p 1727061883783685995000000, p 1652262898695184721000000, p 1577453546997768189000000, p 1502636429999059048000000,
  p 1427814147647470762000000, p 1352989298441743512000000, p 1278164479342286603000000, p 1203342285682085450000000,
  p 1128525311077476726000000, p 1053716147338906598000000, p 978917384382749960000000, p 904131610141868311000000,
  p 829361410477666210700000, p 754609369091353995000000, p 679878067435360326800000, p 605170084625663499800000,
  p 530487997353483497000000, p 455834379797163459000000, p 381211803534584308800000, p 306622837455710619500000,
  p 232070047674926092200000, p 157555997443430589900000, p 83083247062601582270000, p 8654353796701388379000,
  m 65728128214253766990000, m 140061648040565355300000, m 214343658050105052300000, m 288571613994051618200000,
  m 362742975093354954900000, m 436855204124936345600000, m 510905767507439088400000, m 584892135386266918300000,
  m 658811781720138522600000, m 732662184365755545000000, m 806440825162812384300000, m 880145190019102812200000,
  m 953772768995496162000000, m 1027321056389929712000000, m 1100787550821998896000000, m 1174169755317343907000000,
  m 1247465177390946452000000, m 1320671329131541290000000, m 1393785727284493512000000, m 1466805893335346514000000,
  m 1539729353593065949000000, m 1612553639272791897000000, m 1685276286577856589000000, m 1757894836783225039000000,
  m 1830406836317062611000000, m 1902809836842590547000000, m 1975101395339952989000000, m 2047279074187973412000000,
  m 2119340441244770695000000, m 2191283069929440309000000, m 2263104539302206782000000, m 2334802434145183750000000,
  m 2406374345042894183000000, m 2477817868461732864000000, m 2549130606830016937000000, m 2620310168617607984000000,
  m 2691354168414987653000000, m 2762260227012067453000000, m 2833025971477055351000000, m 2903649035235150201000000,
  m 2974127058146209222000000, m 3044457686582880806000000, m 3114638573508505311000000, m 3184667378553859667000000,
  m 3254541768094878183000000, m 3324259415328889317000000, m 3393818000351311696000000, m 3463215210232161931000000,
  m 3532448739091453068000000, m 3601516288175060990000000, m 3670415565930259475000000, m 3739144288080574387000000,
  m 3807700177700332114000000, m 3876080965289281730000000, m 3944284388847004233000000, m 4012308193946169908000000,
  m 4080150133806381176000000, m 4147807969367549655000000, m 4215279469362277938000000, m 4282562410389018949000000,
  m 4349654576983841454000000, m 4416553761692518232000000, m 4483257765142386990000000, m 4549764396113498317000000,
  m 4616071471609033312000000, m 4682176816926869600000000, m 4748078265729367524000000, m 4813773660113206641000000,
  m 4879260850679185794000000, m 4944537696601749091000000, m 5009602065697390388000000, m 5074451834493866158000000,
  m 5139084888297909548000000, m 5203499121263349507000000, m 5267692436458998317000000, m 5331662745935269315000000,
  m 5395407970791326301000000, m 5458926041241761104000000, m 5522214896682599815000000, m 5585272485756570017000000,
  m 5648096766419458299000000, m 5710685706004608141000000, m 5773037281287514075000000, m 5835149478550334320000000,
  m 5897020293646010498000000, m 5958647732061412433000000, m 6020029808981010311000000, m 6081164549349276152000000,
  m 6142049987933317738000000, m 6202684169385174265000000, m 6263065148303072899000000, m 6323190989292905642000000,
  m 6383059767029361856000000, m 6442669566316225511000000, m 6502018482146416575000000, m 6561104619761931774000000,
  m 6619926094713288363000000, m 6678481032918178600000000, m 6736767570720247379000000, m 6794783854947092708000000,
  m 6852528042968320833000000, m 6909998302752707981000000, m 6967192812925016021000000, m 7024109762822705778000000,
  m 7080747352552266109000000, m 7137103793044574131000000, m 7193177306110322237000000, m 7248966124495315015000000,
  m 7304468491934277760000000, m 7359682663205658129000000, m 7414606904184672248000000, m 7469239491896902464000000,
  m 7523578714571176919000000, m 7577622871691658962000000, m 7631370274049992068000000, m 7684819243797008474000000,
  m 7737968114493700561000000, m 7790815231161806256000000, m 7843358950334163721000000, m 7895597640104825773000000,
  m 7947529680178005984000000, m 7999153461917271959000000, m 8050467388394242502000000, m 8101469874436308116000000,
  m 8152159346674714077000000, m 8202534243591359797000000, m 8252593015565858406000000, m 8302334124921859071000000,
  m 8351756045972949516000000, m 8400857265067675564000000, m 8449636280635275387000000, m 8498091603229741484000000,
  m 8546221755573998879000000, m 8594025272603523016000000, m 8641500701509837942000000, m 8688646601782822748000000,
  m 8735461545253422194000000, m 8781944116135158643000000, m 8828092911065631848000000, m 8873906539147670067000000,
  m 8919383621989398700000000, m 8964522793744475471000000, m 9009322701151671609000000, m 9053782003574003742000000,
  m 9097899373036913429000000, m 9141673494267100672000000, m 9185103064729789255000000, m 9228186794666000739000000,
  m 9270923407129287239000000, m 9313311638022356634000000, m 9355350236132367256000000, m 9397037963166772478000000,
  m 9438373593787838245000000, m 9479355915647228251000000, m 9519983729420087790000000, m 9560255848838130135000000,
  m 9600171100722884251000000, m 9639728325018255550000000, m 9678926374822502052000000, m 9717764116419665837000000,
  m 9756240429310726950000000, m 9794354206244436367000000, m 9832104353247115083000000, m 9869489789652421963000000,
  m 9906509448130687914000000, m 9943162274717273416000000, m 9979447228841137676000000, m 10015363283352250730000000,
  m 10050909424548884130000000, m 10086084652204691660000000, m 10120887979594452720000000, m 10155318433520231850000000,
  m 10189375054336549660000000, m 10223056895975283010000000, m 10256363025969801940000000, m 10289292525478912350000000,
  m 10321844489310318120000000, m 10354018025943245370000000, m 10385812257550962670000000, m 10417226320022713110000000,
  m 10448259362984871000000000, m 10478910549822148880000000, m 10509179057697737650000000, m 10539064077573300980000000,
  m 10568564814228556880000000, m 10597680486280096000000000, m 10626410326199554540000000, m 10654753580332082180000000,
  m 10682709508913491510000000, m 10710277386087133440000000, m 10737456499920571340000000, m 10764246152421495450000000,
  m 10790645659553111530000000, m 10816654351249238230000000, m 10842271571428765960000000, m 10867496678009536460000000,
  m 10892329042922067880000000, m 10916768052122384840000000, m 10940813105604484110000000, m 10964463617412619980000000,
  m 10987719015652560800000000, m 11010578742502588960000000, m 11033042254224311590000000, m 11055109021172421920000000,
  m 11076778527804346030000000, m 11098050272689202740000000, m 11118923768516544850000000, m 11139398542104115080000000,
  m 11159474134405713080000000, m 11179150100517938270000000, m 11198426009686986500000000, m 11217301445314660850000000,
  m 11235776004963882870000000, m 11253849300363747560000000, m 11271520957414214030000000, m 11288790616190159600000000,
  m 11305657930944876950000000, m 11322122570113196670000000, m 11338184216314281870000000, m 11353842566353355980000000,
  m 11369097331223685520000000, m 11383948236107473490000000, m 11398395020376581030000000, m 11412437437592648850000000,
  m 11426075255506660050000000, m 11439308256058166450000000, m 11452136235373899100000000, m 11464559003766017910000000,
  m 11476576385729575500000000, m 11488188219939935930000000, m 11499394359249346870000000, m 11510194670683079890000000,
  m 11520589035435249700000000, m 11530577348863988230000000, m 11540159520486105090000000, m 11549335473971454950000000,
  m 11558105147136609260000000, m 11566468491938083910000000, m 11574425474465233760000000, m 11581976074932479400000000,
  m 11589120287671020320000000, m 11595858121120319190000000, m 11602189597818893950000000, m 11608114754394549540000000,
  m 11613633641554356460000000, m 11618746324074074110000000, m 11623452880786930630000000, m 11627753404572118210000000,
  m 11631648002342733290000000, m 11635136795033218860000000, m 11638219917586364520000000, m 11640897518939779050000000,
  m 11643169762011960560000000, m 11645036823687783880000000, m 11646498894803699810000000, m 11647556180132107030000000,
  m 11648208898365729200000000, m 11648457282101119460000000, m 11648301577821795410000000, m 11647742045881100130000000,
  m 11646778960484327480000000, m 11645412609670467710000000, m 11643643295293602470000000, m 11641471333003619930000000,
  m 11638897052226628010000000, m 11635920796144907930000000, m 11632542921676173810000000, m 11628763799452769900000000,
  m 11624583813799927580000000, m 11620003362713951160000000, m 11615022857839798350000000, m 11609642724448164530000000,
  m 11603863401412060560000000, m 11597685341183159790000000, m 11591109009767459890000000, m 11584134886700552660000000,
  m 11576763465022526030000000, m 11568995251252284920000000, m 11560830765361494040000000, m 11552270540748072960000000,
  m 11543315124209186510000000, m 11533965075913883010000000, m 11524220969375154750000000, m 11514083391421674200000000,
  m 11503552942169025310000000, m 11492630234990470000000000, m 11481315896487332900000000, m 11469610566458914370000000,
  m 11457514897871948910000000, m 11445029556829643820000000, m 11432155222540327580000000, m 11418892587285497940000000,
  m 11405242356387641080000000, m 11391205248177596260000000, m 11376781993961205750000000, m 11361973337985945690000000,
  m 11346780037406840530000000, m 11331202862252087730000000, m 11315242595388188070000000, m 11298900032484663140000000,
  m 11282175981978391150000000, m 11265071265037467430000000, m 11247586715524669420000000, m 11229723179960557360000000,
  m 11211481517486025090000000, m 11192862599824595850000000, m 11173867311244152500000000, m 11154496548518326100000000,
  m 11134751220887667560000000, m 11114632250019903380000000, m 11094140569970338890000000, m 11073277127141524160000000,
  m 11052042880242701410000000, m 11030438800248591400000000, m 11008465870358110500000000, m 10986125085952423360000000,
  m 10963417454552802990000000, m 10940343995777887170000000, m 10916905741300672940000000, m 10893103734805181450000000,
  m 10868939031942567720000000, m 10844412700286899100000000, m 10819525819290595410000000, m 10794279480239515200000000,
  m 10768674786207584060000000, m 10742712852010906020000000, m 10716394804161942510000000, m 10689721780822726910000000,
  m 10662694931758108510000000, m 10635315418288672150000000, m 10607584413242833810000000, m 10579503100909068080000000,
  m 10551072676987549230000000, m 10522294348541223400000000, m 10493169333947055880000000, m 10463698862846369450000000,
  m 10433884176095049170000000, m 10403726525713408860000000, m 10373227174835757470000000, m 10342387397659498840000000,
  m 10311208479393665920000000, m 10279691716207793250000000, m 10247838415179611610000000, m 10215649894242902210000000,
  m 10183127482135005680000000, m 10150272518343606000000000, m 10117086353053693010000000, m 10083570347093876240000000,
  m 10049725871882200790000000, m 10015554309372032630000000, m 9981057051997576160000000, m 9946235502618510499000000,
  m 9911091074464965789000000, m 9875625191081895821000000, m 9839839286273121058000000, m 9803734804044887674000000,
  m 9767313198549615674000000, m 9730575934028607918000000, m 9693524484755217108000000, m 9656160334977105519000000,
  m 9618484978858326054000000, m 9580499920421451862000000, m 9542206673488940957000000, m 9503606761624306537000000,
  m 9464701718073172815000000, m 9425493085704157378000000, m 9385982416948667612000000, m 9346171273741351107000000,
  m 9306061227459833107000000, m 9265653858864082715000000, m 9224950758035550119000000, m 9183953524316310763000000,
  m 9142663766247291837000000, m 9101083101506961953000000, m 9059213156849321713000000, m 9017055568041327032000000,
  m 8974611979800952571000000, m 8931884045734068620000000, m 8888873428271343996000000, m 8845581798605148954000000,
  m 8802010836625953280000000, m 8758162230858474590000000, m 8714037678397412029000000, m 8669638884843396814000000,
  m 8624967564238252352000000, m 8580025438999923024000000, m 8534814239857850537000000, m 8489335705787096065000000,
  m 8443591583943121578000000, m 8397583629595851279000000, m 8351313606063358319000000, m 8304783284645905414000000,
  m 8257994444559246458000000, m 8210948872867633239000000, m 8163648364417012970000000, m 8116094721767851128000000,
  m 8068289755127522334000000, m 8020235282282465322000000, m 7971933128530610257000000, m 7923385126613067056000000,
  m 7874593116645588198000000, m 7825558946050427053000000, m 7776284469487053895000000, m 7726771548783680291000000,
  m 7677022052867775621000000, m 7627037857696629571000000, m 7576820846187794917000000, m 7526372908149692523000000,
  m 7475695940210969059000000, m 7424791845750682191000000, m 7373662534827987898000000, m 7322309924111516412000000,
  m 7270735936808390802000000, m 7218942502593746029000000, m 7166931557539162924000000, m 7114705044041747493000000,
  m 7062264910752570103000000, m 7009613112504795886000000, m 6956751610242266175000000]

/-- src/mid_qual_coeffs.h:7394-7884 -/
def row15 : List ℤ := [
  m 6903682370947366968000000, m 6850407367568658867000000, m 6796928578949034370000000, m 6743247989753013878000000,
  m 6689367590393994860000000, m 6635289376961860976000000, m 6581015351149664856000000, m 6526547520180898086000000,
  m 6471887896736185260000000, m 6417038498879749919000000, m 6362001349985991518000000, m 6306778478666309577000000,
  m 6251371918694581704000000, m 6195783708933684172000000, m 6140015893261548466000000, m 6084070520496857870000000,
  m 6027949644324580997000000, m 5971655323221999705000000, m 5915189620383731750000000, m 5858554603647451661000000,
  m 5801752345418986247000000, m 5744784922597273059000000, m 5687654416499737797000000, m 5630362912787031590000000,
  m 5572912501387698031000000, m 5515305276423063986000000, m 5457543336131907494000000, m 5399628782794937444000000,
  m 5341563722658955807000000, m 5283350265861584509000000, m 5224990526355404244000000, m 5166486621831771486000000,
  m 5107840673645542770000000, m 5049054806738368685000000, m 4990131149563236876000000, m 4931071834008021043000000,
  m 4871878995319098467000000, m 4812554772025473201000000, m 4753101305862226199000000, m 4693520741693899510000000,
  m 4633815227438242181000000, m 4573986913989756646000000, m 4514037955142986662000000, m 4453970507515669919000000,
  m 4393786730472448374000000, m 4333488786047921121000000, m 4273078838869686855000000, m 4212559056081938841000000,
  m 4151931607268115332000000, m 4091198664374426017000000, m 4030362401632753971000000, m 3969424995483510771000000,
  m 3908388624498746605000000, m 3847255469305609077000000, m 3786027712508435034000000, m 3724707538612243192000000,
  m 3663297133945640858000000, m 3601798686583667763000000, m 3540214386270423494000000, m 3478546424342479886000000,
  m 3416796993651161074000000, m 3354968288485956750000000, m 3293062504497140924000000, m 3231081838618463532000000,
  m 3169028488990416250000000, m 3106904654882967909000000, m 3044712536618240060000000, m 2982454335493545539000000,
  m 2920132253704793481000000, m 2857748494268537356000000, m 2795305260945486238000000, m 2732804758163528622000000,
  m 2670249190940591870000000, m 2607640764807488652000000, m 2544981685731459008000000, m 2482274160038702802000000,
  m 2419520394338039310000000, m 2356722595443827822000000, m 2293882970299008367000000, m 2231003725898760004000000,
  m 2168087069213613972000000, m 2105135207112651848000000, m 2042150346287067118000000, m 1979134693173770568000000,
  m 1916090453878758213000000, m 1853019834100487484000000, m 1789925039053932984000000, m 1726808273394105347000000,
  m 1663671741139575956000000, m 1600517645596858394000000, m 1537348189283727811000000, m 1474165573853725110000000,
  m 1410972000020032074000000, m 1347769667479437354000000, m 1284560774836677370000000, m 1221347519529267277000000,
  m 1158132097751012231000000, m 1094916704377040017000000, m 1031703532888466127000000, m 968494775296928843900000,
  m 905292622069165850900000, m 842099262052341431000000, m 778916882398828858500000, m 715747668491074429500000,
  m 652593803867339804200000, m 589457470146415550600000, m 526340846953591385800000, m 463246111845974487900000,
  m 400175440238008384200000, m 337131005327346536700000, m 274114978021291176300000, m 211129526861929034300000,
  m 148176817952834965800000, m 85259014885446910930000, m 22378278665353641880000, p 40463232361362154790000,
  p 103263362580879210800000, p 166019959185392812400000, p 228730872245585370800000, p 291393954783712846500000,
  p 354007062846537910900000, p 416568055577434120900000, p 479074795289016568400000, p 541525147535538422700000,
  p 603916981184833816900000, p 666248168490086393300000, p 728516585161756414200000, p 790720110439399777300000,
  p 852856627162648238600000, p 914924021842694005400000, p 976920184733613868000000, p 1038843009902744871000000,
  p 1100690395302029697000000, p 1162460242838037798000000, p 1224150458442581227000000, p 1285758952143110359000000,
  p 1347283638132279774000000, p 1408722434837982301000000, p 1470073264993120021000000, p 1531334055704890434000000,
  p 1592502738523860319000000, p 1653577249513157790000000, p 1714555529317514067000000, p 1775435523231478230000000,
  p 1836215181268034636000000, p 1896892458227065949000000, p 1957465313762832802000000, p 2017931712452353775000000,
  p 2078289623862501247000000, p 2138537022617561720000000, p 2198671888466552198000000, p 2258692206350047370000000,
  p 2318595966466396180000000, p 2378381164339084600000000, p 2438045800882449564000000, p 2497587882467646164000000,
  p 2557005420988598798000000, p 2616296433927745024000000, p 2675458944420889065000000, p 2734490981322824227000000,
  p 2793390579271708488000000, p 2852155778753865528000000, p 2910784626168364583000000, p 2969275173890681754000000,
  p 3027625480336824503000000, p 3085833610027120897000000, p 3143897633649158415000000, p 3201815628121101789000000,
  p 3259585676654786195000000, p 3317205868817775689000000, p 3374674300596267745000000, p 3431989074456692854000000,
  p 3489148299407688388000000, p 3546150091061818325000000, p 3602992571696721387000000, p 3659673870315688880000000,
  p 3716192122709150673000000, p 3772545471514705730000000, p 3828732066277179547000000, p 3884750063508678533000000,
  p 3940597626748425404000000, p 3996272926621569771000000, p 4051774140898863931000000, p 4107099454554861973000000,
  p 4162247059826647971000000, p 4217215156272244130000000, p 4272001950828037929000000, p 4326605657866649905000000,
  p 4381024499254372075000000, p 4435256704408034774000000, p 4489300510351376498000000, p 4543154161772123244000000,
  p 4596815911077757263000000, p 4650284018451154855000000, p 4703556751906285728000000, p 4756632387343561960000000,
  p 4809509208604297904000000, p 4862185507525776385000000, p 4914659583995067624000000, p 4966929746003165627000000,
  p 5018994309698832264000000, p 5070851599441469036000000, p 5122499947854363550000000, p 5173937695877473680000000,
  p 5225163192819631472000000, p 5276174796410456475000000, p 5326970872852158922000000, p 5377549796871144289000000,
  p 5427909951768681955000000, p 5478049729471706590000000, p 5527967530583552738000000, p 5577661764433403113000000,
  p 5627130849126638079000000, p 5676373211593643830000000, p 5725387287639173081000000, p 5774171521991049161000000,
  p 5822724368348519697000000, p 5871044289429851355000000, p 5919129757020716483000000, p 5966979252021086151000000,
  p 6014591264492144020000000, p 6061964293703055347000000, p 6109096848177438498000000, p 6155987445738881486000000,
  p 6202634613556771634000000, p 6249036888191630834000000, p 6295192815639622484000000, p 6341100951377481691000000,
  p 6386759860406317907000000, p 6432168117295548534000000, p 6477324306226421406000000, p 6522227021035088834000000,
  p 6566874865254905373000000, p 6611266452159409064000000, p 6655400404803977349000000, p 6699275356067286961000000,
  p 6742889948692776421000000, p 6786242835329623670000000, p 6829332678572868492000000, p 6872158151004048414000000,
  p 6914717935230468501000000, p 6957010723924821581000000, p 6999035219864431154000000, p 7040790135969372809000000,
  p 7082274195341109989000000, p 7123486131300334374000000, p 7164424687424417702000000, p 7205088617584422088000000,
  p 7245476685981949889000000, p 7285587667185660504000000, p 7325420346166925875000000, p 7364973518335538906000000,
  p 7404245989575152127000000, p 7443236576277710223000000, p 7481944105378206082000000, p 7520367414388478416000000,
  p 7558505351430971214000000, p 7596356775272163596000000, p 7633920555355059451000000, p 7671195571831971975000000,
  p 7708180715596558812000000, p 7744874888315485956000000, p 7781277002459632830000000, p 7817385981335063169000000,
  p 7853200759113724422000000, p 7888720280863176573000000, p 7923943502576583781000000, p 7958869391201984361000000,
  p 7993496924671108020000000, p 8027825091928033480000000, p 8061852892957108857000000, p 8095579338810776626000000,
  p 8129003451636966637000000, p 8162124264705925350000000, p 8194940822436469138000000, p 8227452180422529029000000,
  p 8259657405458619914000000, p 8291555575565026995000000, p 8323145780012780603000000, p 8354427119348242434000000,
  p 8385398705416954521000000, p 8416059661387509036000000, p 8446409121774588885000000, p 8476446232461911159000000,
  p 8506170150724795889000000, p 8535580045251869169000000, p 8564675096166865162000000, p 8593454495049905953000000,
  p 8621917444958179452000000, p 8650063160446136781000000, p 8677890867585785067000000, p 8705399803986064305000000,
  p 8732589218811970949000000, p 8759458372803240883000000, p 8786006538292831167000000, p 8812232999224577784000000,
  p 8838137051170872477000000, p 8863718001349584971000000, p 8888975168640740609000000, p 8913907883602856241000000,
  p 8938515488488570082000000, p 8962797337260085956000000, p 8986752795604353861000000, p 9010381240947355416000000,
  p 9033682062468375434000000, p 9056654661113675009000000, p 9079298449609952970000000, p 9101612852477024979000000,
  p 9123597306040348229000000, p 9145251258443285944000000, p 9166574169658422977000000, p 9187565511498997639000000,
  p 9208224767629606677000000, p 9228551433576610147000000, p 9248545016738121682000000, p 9268205036393580704000000,
  p 9287531023712589096000000, p 9306522521764061875000000, p 9325179085524226003000000, p 9343500281884497757000000,
  p 9361485689658987155000000, p 9379134899591514904000000, p 9396447514362218228000000, p 9413423148593712611000000,
  p 9430061428856890970000000, p 9446361993676240590000000, p 9462324493534814834000000, p 9477948590878682716000000,
  p 9493233960121064477000000, p 9508180287646042159000000, p 9522787271811697721000000, p 9537054622953036048000000,
  p 9550982063384415299000000, p 9564569327401477652000000, p 9577816161282812907000000, p 9590722323291039214000000,
  p 9603287583673557684000000, p 9615511724663008616000000, p 9627394540477073742000000, p 9638935837317830907000000,
  p 9650135433371226715000000, p 9660993158805331396000000, p 9671508855768836538000000, p 9681682378388756574000000,
  p 9691513592767949867000000, p 9701002376982053449000000, p 9710148621076114192000000, p 9718952227060654453000000,
  p 9727413108907593739000000, p 9735531192545502505000000, p 9743306415854529820000000, p 9750738728660961543000000,
  p 9757828092731313588000000, p 9764574481766047018000000, p 9770977881392806097000000, p 9777038289159387455000000,
  p 9782755714526129853000000, p 9788130178857972624000000, p 9793161715416139404000000, p 9797850369349403801000000,
  p 9802196197684855464000000, p 9806199269318329609000000, p 9809859665004532978000000, p 9813177477346527941000000,
  p 9816152810785004970000000, p 9818785781587067649000000, p 9821076517834646455000000, p 9823025159412487536000000,
  p 9824631857995752907000000, p 9825896777037183491000000, p 9826820091753953393000000, p 9827401989113969047000000,
  p 9827642667821915104000000, p 9827542338304901329000000, p 9827101222697502345000000, p 9826319554826693295000000,
  p 9825197580196143657000000, p 9823735555970358399000000, p 9821933750958099230000000, p 9819792445595746863000000,
  p 9817311931930052665000000, p 9814492513600586721000000, p 9811334505821693239000000, p 9807838235364334939000000,
  p 9804004040537082215000000, p 9799832271167157813000000, p 9795323288580855270000000, p 9790477465583657252000000,
  p 9785295186439854284000000, p 9779776846851962260000000, p 9773922853939583100000000, p 9767733626217999995000000,
  p 9761209593576309490000000, p 9754351197255189260000000, p 9747158889824341504000000, p 9739633135159513067000000,
  p 9731774408419144318000000, p 9723583196020596509000000, p 9715059995616033908000000, p 9706205316068056144000000,
  p 9697019677424712977000000, p 9687503610894284897000000, p 9677657658819753192000000, p 9667482374652813792000000,
  p 9656978322927438352000000, p 9646146079233260118000000, p 9634986230188479286000000, p 9623499373412362431000000,
  p 9611686117497537235000000, p 9599547081981660984000000, p 9587082897319040495000000, p 9574294204851655291000000,
  p 9561181656779885879000000, p 9547745916132934982000000, p 9533987656738854982000000, p 9519907563194185060000000,
  p 9505506330833230974000000, p 9490784665697171371000000, p 9475743284502470207000000, p 9460382914609283961000000,
  p 9444704293989344968000000, p 9428708171193353818000000, p 9412395305318468908000000, p 9395766465974961582000000,
  p 9378822433252786278000000, p 9361563997687763830000000, p 9343991960227473331000000, p 9326107132196691241000000,
  p 9307910335262485277000000, p 9289402401399192086000000, p 9270584172852770408000000, p 9251456502104984242000000,
  p 9232020251837258148000000, p 9212276294894100603000000, p 9192225514246287962000000, p 9171868802953717092000000,
  p 9151207064127869426000000, p 9130241210893905515000000, p 9108972166352787350000000, p 9087400863542453508000000,
  p 9065528245399223292000000, p 9043355264718663106000000, p 9020882884116211697000000, p 8998112075987213868000000,
  p 8975043822467099891000000, p 8951679115390962990000000, p 8928018956252675373000000, p 8904064356164189883000000,
  p 8879816335813965622000000, p 8855275925425544481000000, p 8830444164715588184000000, p 8805322102851556240000000,
  p 8779910798409278072000000, p 8754211319330211169000000, p 8728224742878114631000000, p 8701952155595788635000000,
  p 8675394653261336853000000, p 8648553340844114881000000, p 8621429332460467040000000, p 8594023751329150917000000,
  p 8566337729726420172000000, p 8538372408940925196000000, p 8510128939228263356000000, p 8481608479765104236000000,
  p 8452812198603455382000000, p 8423741272624157839000000, p 8394396887490343517000000, p 8364780237600632357000000,
  p 8334892526042121316000000, p 8304734964542846015000000, p 8274308773424093183000000, p 8243615181552676682000000,
  p 8212655426292642807000000, p 8181430753456628638000000, p 8149942417257556929000000, p 8118191680259154858000000,
  p 8086179813327196153000000, p 8053908095579691978000000, p 8021377814337168552000000, p 7988590265072873647000000,
  p 7955546751362280525000000, p 7922248584832662990000000, p 7888697085112342591000000, p 7854893579779788360000000,
  p 7820839404312256854000000, p 7786535902034231842000000, p 7751984424065929032000000, p 7717186329271187584000000,
  p 7682142984205298300000000, p 7646855763062511760000000, p 7611326047623397269000000]

/-- src/mid_qual_coeffs.h:7885-8375 -/
def row16 : List ℤ := [
  p 7575555227202082978000000, p 7539544698593054518000000, p 7503295866017596280000000, p 7466810141070586576000000,
  p 7430088942666458404000000, p 7393133696985184494000000, p 7355945837418199906000000, p 7318526804513745231000000,
  p 7280878045922417087000000, p 7243001016342202544000000, p 7204897177463267209000000, p 7166567997912753722000000,
  p 7128014953199578521000000, p 7089239525658173890000000, p 7050243204392903952000000, p 7011027485222023556000000,
  p 6971593870621277216000000, p 6931943869667249979000000, p 6892078997980994118000000, p 6852000777670948922000000,
  p 6811710737275768549000000, p 6771210411707393600000000, p 6730501342193257082000000, p 6689585076218892805000000,
  p 6648463167470081495000000, p 6607137175774767911000000, p 6565608667044845262000000, p 6523879213218322128000000,
  p 6481950392200105070000000, p 6439823787803672893000000, p 6397500989692334571000000, p 6354983593320104665000000,
  p 6312273199872342824000000, p 6269371416206797470000000, p 6226279854793739625000000, p 6183000133656570314000000,
  p 6139533876311959598000000, p 6095882711709671616000000, p 6052048274172813769000000, p 6008032203337359059000000,
  p 5963836144091688371000000, p 5919461746516141432000000, p 5874910665822384755000000, p 5830184562292559276000000,
  p 5785285101218067168000000, p 5740213952838857381000000, p 5694972792281972201000000, p 5649563299500067783000000,
  p 5603987159210296366000000, p 5558246060832187571000000, p 5512341698426369285000000, p 5466275770632519210000000,
  p 5420049980607138593000000, p 5373666035961876739000000, p 5327125648701110452000000, p 5280430535159485322000000,
  p 5233582415939605319000000, p 5186583015849574076000000, p 5139434063840279433000000, p 5092137292942376138000000,
  p 5044694440203852277000000, p 4997107246626865396000000, p 4949377457104471925000000, p 4901506820357946423000000,
  p 4853497088873032217000000, p 4805350018836997833000000, p 4757067370075092338000000, p 4708650905986890532000000,
  p 4660102393482724002000000, p 4611423602920474742000000, p 4562616308041092875000000, p 4513682285905160421000000,
  p 4464623316829089035000000, p 4415441184320982072000000, p 4366137675016432476000000, p 4316714578614817659000000,
  p 4267173687814651561000000, p 4217516798249744230000000, p 4167745708424761171000000, p 4117862219650605775000000,
  p 4067868135980432301000000, p 4017765264144984930000000, p 3967555413487884770000000, p 3917240395901216976000000,
  p 3866822025761264010000000, p 3816302119863129554000000, p 3765682497356482618000000, p 3714964979680825466000000,
  p 3664151390500620595000000, p 3613243555640274600000000, p 3562243303019714449000000, p 3511152462588991007000000,
  p 3459972866263840135000000, p 3408706347860499582000000, p 3357354743030586605000000, p 3305919889196498596000000,
  p 3254403625486182710000000, p 3202807792668003941000000, p 3151134233085833500000000, p 3099384790594104239000000,
  p 3047561310492645330000000, p 2995665639461397682000000, p 2943699625495717863000000, p 2891665117841119102000000,
  p 2839563966927989742000000, p 2787398024306930559000000, p 2735169142583204326000000, p 2682879175352089179000000,
  p 2630529977133602704000000, p 2578123403307348328000000, p 2525661310047499618000000, p 2473145554258229101000000,
  p 2420577993507942293000000, p 2367960485964699154000000, p 2315294890331318078000000, p 2262583065780284300000000,
  p 2209826871888658298000000, p 2157028168573510690000000, p 2104188816026917371000000, p 2051310674650875729000000,
  p 1998395604992992802000000, p 1945445467681188121000000, p 1892462123359403559000000, p 1839447432622744400000000,
  p 1786403255952702168000000, p 1733331453652612068000000, p 1680233885783556039000000, p 1627112412099111565000000,
  p 1573968891981315657000000, p 1520805184376375352000000, p 1467623147730174596000000, p 1414424639923819726000000,
  p 1361211518209859981000000, p 1307985639147634565000000, p 1254748858539622616000000, p 1201503031367237399000000,
  p 1148250011726672550000000, p 1094991652765424416000000, p 1041729806618279467000000, p 988466324343469961200000,
  p 935203055859147721800000, p 881941849879938144900000, p 828684553853333959900000, p 775433013896099075100000,
  p 722189074731339314900000, p 668954579625081905200000, p 615731370322956874000000, p 562521286987597494800000,
  p 509326168135190498700000, p 456147850573075848200000, p 402988169336807337500000, p 349848957627318360400000,
  p 296732046748764382700000, p 243639266045896633200000, p 190572442841611949900000, p 137533402374862554500000,
  p 84523967738684343820000, p 31545959818079633540000, m 21398802772044281500000, m 74308503748243647090000,
  m 127181329220425227800000, m 180015467753225777300000, m 232809110427587131800000, m 285560450901884105100000,
  m 338267685472922786700000, m 390929013137064878700000, m 443542635651279499700000, m 496106757593490176100000,
  m 548619586423351908400000, m 601079332542895695400000, m 653484209356390371100000, m 705832433331017540200000,
  m 758122224056444475800000, m 810351804304894124100000, m 862519400091048683700000, m 914623240731252790600000,
  m 966661558903112870700000, m 1018632590704893204000000, m 1070534575714492077000000, m 1122365757048264740000000,
  m 1174124381419940468000000, m 1225808699199420039000000, m 1277416964470876829000000, m 1328947435091215904000000,
  m 1380398372748392393000000, m 1431768043018942504000000, m 1483054715426220579000000, m 1534256663497612656000000,
  m 1585372164822118233000000, m 1636399501107736005000000, m 1687336958238476198000000, m 1738182826330797849000000,
  m 1788935399791078676000000, m 1839592977371667026000000, m 1890153862227182333000000, m 1940616361970752025000000,
  m 1990978788730162798000000, m 2041239459203183105000000, m 2091396694713596252000000, m 2141448821266162070000000,
  m 2191394169601946790000000, m 2241231075253473370000000, m 2290957878599133267000000, m 2340572924917901348000000,
  m 2390074564443828761000000, m 2439461152420123805000000, m 2488731049152662512000000, m 2537882620064437714000000,
  m 2586914235748656761000000, m 2635824272021959798000000, m 2684611109977651493000000, m 2733273136038706381000000,
  m 2781808742010044317000000, m 2830216325131368425000000, m 2878494288129014676000000, m 2926641039268057781000000,
  m 2974654992404242304000000, m 3022534567035187799000000, m 3070278188351798637000000, m 3117884287289503838000000,
  m 3165351300578907959000000, m 3212677670796319686000000, m 3259861846414184149000000, m 3306902281851403780000000,
  m 3353797437522858162000000, m 3400545779889219220000000, m 3447145781506518770000000, m 3493595921074912469000000,
  m 3539894683488022283000000, m 3586040559881204740000000, m 3632032047680157014000000, m 3677867650649139196000000,
  m 3723545878938901241000000, m 3769065249133877853000000, m 3814424284300290194000000, m 3859621514032918373000000,
  m 3904655474501891269000000, m 3949524708499478100000000, m 3994227765486566863000000, m 4038763201638482722000000,
  m 4083129579890998513000000, m 4127325469986025189000000, m 4171349448516623558000000, m 4215200098972382049000000,
  m 4258876011783914971000000, m 4302375784367460515000000, m 4345698021169248047000000, m 4388841333709396150000000,
  m 4431804340625226935000000, m 4474585667715319341000000, m 4517183947982252729000000, m 4559597821675418980000000,
  m 4601825936333727926000000, m 4643866946827995314000000, m 4685719515402646425000000, m 4727382311717818683000000,
  m 4768854012890457253000000, m 4810133303535644826000000, m 4851218875807574056000000, m 4892109429439858194000000,
  m 4932803671785957085000000, m 4973300317859285710000000, m 5013598090372811851000000, m 5053695719778360587000000,
  m 5093591944305869354000000, m 5133285510002273504000000, m 5172775170769823745000000, m 5212059688404416594000000,
  m 5251137832633667214000000, m 5290008381154213783000000, m 5328670119669382671000000, m 5367121841925938559000000,
  m 5405362349750883130000000, m 5443390453088061201000000, m 5481204970033951539000000, m 5518804726873620739000000,
  m 5556188558116275517000000, m 5593355306530422080000000, m 5630303823178582287000000, m 5667032967451949080000000,
  m 5703541607104829422000000, m 5739828618288236352000000, m 5775892885583674453000000, m 5811733302036615686000000,
  m 5847348769189117390000000, m 5882738197112881776000000, m 5917900504441320556000000, m 5952834618401647328000000,
  m 5987539474846804294000000, m 6022014018286686414000000, m 6056257201919003873000000, m 6090267987660512305000000,
  m 6124045346177131068000000, m 6157588256914045891000000, m 6190895708125529646000000, m 6223966696904554077000000,
  m 6256800229211594011000000, m 6289395319903801941000000, m 6321750992763126159000000, m 6353866280524658738000000,
  m 6385740224904490857000000, m 6417371876627006935000000, m 6448760295452132807000000, m 6479904550202232605000000,
  m 6510803718788542478000000, m 6541456888237116851000000, m 6571863154715021013000000, m 6602021623555607774000000,
  m 6631931409283598096000000, m 6661591635639950958000000, m 6691001435606536325000000, m 6720159951429930355000000,
  m 6749066334645476874000000, m 6777719746100658443000000, m 6806119355978151701000000, m 6834264343818763007000000,
  m 6862153898543738723000000, m 6889787218476892475000000, m 6917163511366409764000000, m 6944281994406318638000000,
  m 6971141894257327186000000, m 6997742447067827574000000, m 7024082898494089962000000, m 7050162503720494578000000,
  m 7075980527479031751000000, m 7101536244068723004000000, m 7126828937374781944000000, m 7151857900887070851000000,
  m 7176622437718472268000000, m 7201121860622881551000000, m 7225355492012937482000000, m 7249322663977078932000000,
  m 7273022718296585053000000, m 7296455006462264185000000, m 7319618889690427191000000, m 7342513738939051605000000,
  m 7365138934923109656000000, m 7387493868129770512000000, m 7409577938833420384000000, m 7431390557109923689000000,
  m 7452931142850768853000000, m 7474199125777057987000000, m 7495193945452767112000000, m 7515915051297784345000000,
  m 7536361902600756391000000, m 7556533968531464057000000, m 7576430728152719861000000, m 7596051670432153735000000,
  m 7615396294253566796000000, m 7634464108427718720000000, m 7653254631703155890000000, m 7671767392776334370000000,
  m 7690001930301545996000000, m 7707957792900550428000000, m 7725634539171729286000000, m 7743031737698866449000000,
  m 7760148967059764431000000, m 7776985815834371561000000, m 7793541882612486753000000, m 7809816776001235299000000,
  m 7825810114632203787000000, m 7841521527168129196000000, m 7856950652309268798000000, m 7872097138799450874000000,
  m 7886960645431664862000000, m 7901540841053546552000000, m 7915837404572127756000000, m 7929850024958629354000000,
  m 7943578401252591667000000, m 7957022242565919834000000, m 7970181268086183254000000, m 7983055207080130139000000,
  m 7995643798896279186000000, m 8007946792967589322000000, m 8019963948813433816000000, m 8031695036041525820000000,
  m 8043139834349257583000000, m 8054298133524899136000000, m 8065169733448195044000000, m 8075754444090784204000000,
  m 8086052085516338625000000, m 8096062487880075972000000, m 8105785491428155881000000, m 8115220946496685961000000,
  m 8124368713510363507000000, m 8133228662980647103000000, m 8141800675503707910000000, m 8150084641758138099000000,
  m 8158080462501987942000000, m 8165788048569768212000000, m 8173207320868961651000000, m 8180338210376118108000000,
  m 8187180658132816105000000, m 8193734615241067554000000, m 8200000042858432772000000, m 8205976912192877032000000,
  m 8211665204497207299000000, m 8217064911063064886000000, m 8222176033214883412000000, m 8226998582303078275000000,
  m 8231532579697262153000000, m 8235778056778851608000000, m 8239735054933581757000000, m 8243403625543368682000000,
  m 8246783829978147559000000, m 8249875739587145262000000, m 8252679435689870210000000, m 8255195009566842004000000,
  m 8257422562449866568000000, m 8259362205512025060000000, m 8261014059857326244000000, m 8262378256510050090000000,
  m 8263454936403622983000000, m 8264244250369314274000000, m 8264746359124563319000000, m 8264961433260812132000000,
  m 8264889653231254768000000, m 8264531209338087103000000, m 8263886301719387123000000, m 8262955140335807858000000,
  m 8261737944956878271000000, m 8260234945146839244000000, m 8258446380250422311000000, m 8256372499378014304000000,
  m 8254013561390643322000000, m 8251369834884629897000000, m 8248441598175939790000000, m 8245229139284018099000000,
  m 8241732755915571335000000, m 8237952755447777026000000, m 8233889454911364966000000, m 8229543180973237018000000,
  m 8224914269918840587000000, m 8220003067634115354000000, m 8214809929587301232000000, m 8209335220810239780000000,
  m 8203579315879462250000000, m 8197542598896925478000000, m 8191225463470360943000000, m 8184628312693521465000000,
  m 8177751559125794739000000, m 8170595624771782167000000, m 8163160941060438811000000, m 8155447948823845578000000,
  m 8147457098275801002000000, m 8139188848989988012000000, m 8130643669877930801000000, m 8121822039166469442000000,
  m 8112724444375168584000000, m 8103351382293191851000000, m 8093703358956044411000000, m 8083780889621883584000000,
  m 8073584498747501600000000, m 8063114719964209476000000, m 8052372096053216077000000, m 8041357178920738313000000,
  m 8030070529572871929000000, m 8018512718090130970000000, m 8006684323601673259000000, m 7994585934259204954000000,
  m 7982218147210796630000000, m 7969581568573969044000000, m 7956676813408933291000000, m 7943504505691303605000000,
  m 7930065278284558622000000, m 7916359772912209478000000, m 7902388640129695552000000, m 7888152539295990515000000,
  m 7873652138544852755000000, m 7858888114756001214000000, m 7843861153525638966000000, m 7828571949137034039000000,
  m 7813021204530744626000000, m 7797209631274335147000000, m 7781137949532133079000000, m 7764806888034528690000000,
  m 7748217184046874914000000, m 7731369583338530346000000, m 7714264840151144158000000, m 7696903717166927138000000,
  m 7679286985476664260000000, m 7661415424547342139000000, m 7643289822189525823000000, m 7624910974524575988000000,
  m 7606279685951427248000000, m 7587396769113329172000000, m 7568263044864044324000000, m 7548879342233975193000000,
  m 7529246498396003143000000, m 7509365358631042014000000, m 7489236776293269060000000]

/-- src/mid_qual_coeffs.h:8376-8866 -/
def row17 : List ℤ := [
  m 7468861612775175469000000, m 7448240737472515416000000, m 7427375027748503097000000, m 7406265368898326366000000,
  m 7384912654113139942000000, m 7363317784443742034000000, m 7341481668764099182000000, m 7319405223734733179000000,
  m 7297089373765536409000000, m 7274535050978740702000000, m 7251743195171365779000000, m 7228714753777398805000000,
  m 7205450681830074568000000, m 7181951941923503391000000, m 7158219504174272163000000, m 7134254346182732250000000,
  m 7110057452994258780000000, m 7085629817059972170000000, m 7060972438197343423000000, m 7036086323550706616000000,
  m 7010972487551391484000000, m 6985631951877554167000000, m 6960065745414088616000000, m 6934274904211936916000000,
  m 6908260471447484619000000, m 6882023497381561418000000, m 6855565039318264886000000, m 6828886161563469358000000,
  m 6801987935383554257000000, m 6774871438963152304000000, m 6747537757363346149000000, m 6719987982479443470000000,
  m 6692223212998457162000000, m 6664244554356384305000000, m 6636053118695479057000000, m 6607650024821048497000000,
  m 6579036398158182551000000, m 6550213370708371161000000, m 6521182081005665217000000, m 6491943674072945050000000,
  m 6462499301377766514000000, m 6432850120788078697000000, m 6402997296527635461000000, m 6372941999131759121000000,
  m 6342685405401934061000000, m 6312228698361075155000000, m 6281573067208350361000000, m 6250719707273597395000000,
  m 6219669819971759481000000, m 6188424612757230034000000, m 6156985299077714219000000, m 6125353098328261379000000,
  m 6093529235804864656000000, m 6061514942657885395000000, m 6029311455845621538000000, m 5996920018087273201000000,
  m 5964341877815992378000000, m 5931578289131684591000000, m 5898630511753797517000000, m 5865499810973720182000000,
  m 5832187457606990456000000, m 5798694727945759297000000, m 5765022903710618346000000, m 5731173272002380685000000,
  m 5697147125254025529000000, m 5662945761181951629000000, m 5628570482737661751000000, m 5594022598058855621000000,
  m 5559303420420428320000000, m 5524414268185646494000000, m 5489356464756827564000000, m 5454131338525939135000000,
  m 5418740222825205351000000, m 5383184455877518954000000, m 5347465380746665130000000, m 5311584345287254788000000,
  m 5275542702094978761000000, m 5239341808456299959000000, m 5202983026298047507000000, m 5166467722137317066000000,
  m 5129797267030509859000000, m 5092973036523065593000000, m 5055996410598454643000000, m 5018868773627240508000000,
  m 4981591514316032962000000, m 4944166025656675408000000, m 4906593704874445162000000, m 4868875953376990140000000,
  m 4831014176702883023000000, m 4793009784469877063000000, m 4754864190323154077000000, m 4716578811883732902000000,
  m 4678155070696266363000000, m 4639594392177254570000000, m 4600898205562835817000000, m 4562067943856446504000000,
  m 4523105043776710042000000, m 4484010945704936316000000, m 4444787093632503183000000, m 4405434935108289152000000,
  m 4365955921186367994000000, m 4326351506372581000000000, m 4286623148572106697000000, m 4246772309036463307000000,
  m 4206800452310467849000000, m 4166709046178954969000000, m 4126499561613912979000000, m 4086173472720864425000000,
  m 4045732256685839918000000, m 4005177393721881876000000, m 3964510367015356557000000, m 3923732662672737952000000,
  m 3882845769666851739000000, m 3841851179783077174000000, m 3800750387565728083000000, m 3759544890264346264000000,
  m 3718236187779754183000000, m 3676825782609951555000000, m 3635315179796496775000000, m 3593705886870298544000000,
  m 3551999413797409660000000, m 3510197272925242359000000, m 3468300978927987832000000, m 3426312048752790367000000,
  m 3384232001565296109000000, m 3342062358695204859000000, m 3299804643582263802000000, m 3257460381721701340000000,
  m 3215031100609725984000000, m 3172518329689179208000000, m 3129923600295167908000000, m 3087248445600417144000000,
  m 3044494400560634161000000, m 3001663001860180747000000, m 2958755787857402994000000, m 2915774298529815334000000,
  m 2872720075419841427000000, m 2829594661579767478000000, m 2786399601517409834000000, m 2743136441141296421000000,
  m 2699806727705881572000000, m 2656412009756850198000000, m 2612953837076816607000000, m 2569433760629941717000000,
  m 2525853332507581577000000, m 2482214105873634460000000, m 2438517634909659858000000, m 2394765474760032157000000,
  m 2350959181477550557000000, m 2307100311968326035000000, m 2263190423937401670000000, m 2219231075833899818000000,
  m 2175223826796167121000000, m 2131170236597403067000000, m 2087071865590822348000000, m 2042930274654848870000000,
  m 1998747025138782486000000, m 1954523678808036367000000, m 1910261797789365073000000, m 1865962944516660286000000,
  m 1821628681675996732000000, m 1777260572151452859000000, m 1732860178970473770000000, m 1688429065249311785000000,
  m 1643968794138628330000000, m 1599480928769480507000000, m 1554967032198334691000000, m 1510428667353100156000000,
  m 1465867396978913105000000, m 1421284783583796245000000, m 1376682389384289301000000, m 1332061776251691450000000,
  m 1287424505657525087000000, m 1242772138619859575000000, m 1198106235649155568000000, m 1153428356694151174000000,
  m 1108740061088301938000000, m 1064042907495777813000000, m 1019338453857582651000000, m 974628257337949405000000,
  m 929913874270795067500000, m 885196860106022198300000, m 840478769355840183400000, m 795761155541628269600000,
  m 751045571140396251400000, m 706333567531307717300000, m 661626694942815652400000, m 616926502399071626300000,
  m 572234537667211992000000, m 527552347204191646700000, m 482881476103693687800000, m 438223468043602852800000,
  m 393579865233090707400000, m 348952208359824811700000, m 304342036537495828500000, m 259750887253421339200000,
  m 215180296316035574700000, m 170631797802411509200000, m 126106924006366146600000, m 81607205386176212580000,
  m 37134170512393207000000, p 7310653983705088637000, p 51725743462366367600000, p 96109575326706656020000,
  p 140460629074431699800000, p 184777386349718205200000, p 229058330994021960100000, p 273301949097473401100000,
  p 317506729050694386300000, p 361671161595002990600000, p 405793739873789942800000, p 449872959483449646800000,
  p 493907318523772271800000, p 537895317648695472700000, p 581835460116921399300000, p 625726251841949698100000,
  p 669566201442400974100000, p 713353820292520553400000, p 757087622571301732500000, p 800766125312948559000000,
  p 844387848456673887800000, p 887951314895739037900000, p 931455050526992073800000, p 974897584300778077100000,
  p 1018277448269265615000000, p 1061593177635863266000000, p 1104843310804208426000000, p 1148026389426561652000000,
  p 1191140958452559977000000, p 1234185566177799795000000, p 1277158764291809988000000, p 1320059107926288512000000,
  p 1362885155703510076000000, p 1405635469783307655000000, p 1448308615911498599000000, p 1490903163466976520000000,
  p 1533417685509523738000000, p 1575850758826466890000000, p 1618200963979818689000000, p 1660466885353755785000000,
  p 1702647111200529745000000, p 1744740233687412352000000, p 1786744848943194654000000, p 1828659557104074301000000,
  p 1870482962359864675000000, p 1912213673000015589000000, p 1953850301459000589000000, p 1995391464361956878000000,
  p 2036835782570415448000000, p 2078181881226687667000000, p 2119428389799437977000000, p 2160573942128611504000000,
  p 2201617176469553711000000, p 2242556735537552023000000, p 2283391266552714863000000, p 2324119421283227412000000,
  p 2364739856089650809000000, p 2405251231968704839000000, p 2445652214596499840000000, p 2485941474371975487000000,
  p 2526117686460202950000000, p 2566179530834985373000000, p 2606125692321721588000000, p 2645954860640292814000000,
  p 2685665730446669570000000, p 2725257001375590207000000, p 2764727378082610602000000, p 2804075570285303846000000,
  p 2843300292805138203000000, p 2882400265608877146000000, p 2921374213849412156000000, p 2960220867906847905000000,
  p 2998938963429289509000000, p 3037527241373109803000000, p 3075984448043331525000000, p 3114309335133829976000000,
  p 3152500659766927643000000, p 3190557184533110262000000, p 3228477677530780174000000, p 3266260912404953670000000,
  p 3303905668386299208000000, p 3341410730330489180000000, p 3378774888756009946000000, p 3415996939882809304000000,
  p 3453075685670534568000000, p 3490009933856074147000000, p 3526798497991368454000000, p 3563440197480956251000000,
  p 3599933857618892175000000, p 3636278309625829482000000, p 3672472390685894202000000, p 3708514943982909196000000,
  p 3744404818736712763000000, p 3780140870239560944000000, p 3815721959891366262000000, p 3851146955235381416000000,
  p 3886414729994040838000000, p 3921524164103316890000000, p 3956474143747935185000000, p 3991263561396040868000000,
  p 4025891315833313687000000, p 4060356312197196255000000, p 4094657462010889426000000, p 4128793683216757000000000,
  p 4162763900209755577000000, p 4196567043870915587000000, p 4230202051599536023000000, p 4263667867346368837000000,
  p 4296963441646063468000000, p 4330087731648829888000000, p 4363039701152633329000000, p 4395818320634907635000000,
  p 4428422567283673596000000, p 4460851425028817749000000, p 4493103884573028568000000, p 4525178943422227852000000,
  p 4557075605915989966000000, p 4588792883257804094000000, p 4620329793544647803000000, p 4651685361796645615000000,
  p 4682858619986702414000000, p 4713848607068965926000000, p 4744654369008005634000000, p 4775274958807516380000000,
  p 4805709436538106033000000, p 4835956869365551532000000, p 4866016331578675892000000, p 4895886904616514844000000,
  p 4925567677095672552000000, p 4955057744837382434000000, p 4984356210893888840000000, p 5013462185575010867000000,
  p 5042374786474377452000000, p 5071093138495033625000000, p 5099616373875087531000000, p 5127943632213308005000000,
  p 5156074060493741167000000, p 5184006813110581154000000, p 5211741051893022635000000, p 5239275946128976215000000,
  p 5266610672589243543000000, p 5293744415551263939000000, p 5320676366822277292000000, p 5347405725762565017000000,
  p 5373931699308358810000000, p 5400253501994163943000000, p 5426370355975174489000000, p 5452281491049349414000000,
  p 5477986144678897995000000, p 5503483562011805136000000, p 5528772995903173670000000, p 5553853706935773030000000,
  p 5578724963440631276000000, p 5603386041517751173000000, p 5627836225055627556000000, p 5652074805751183643000000,
  p 5676101083129289279000000, p 5699914364561757020000000, p 5723513965286300062000000, p 5746899208425205671000000,
  p 5770069425003398859000000, p 5793023953966610143000000, p 5815762142199262276000000, p 5838283344541454929000000,
  p 5860586923806479324000000, p 5882672250797681482000000, p 5904538704324800713000000, p 5926185671220367962000000,
  p 5947612546355769345000000, p 5968818732656783199000000, p 5989803641119087647000000, p 6010566690823426414000000,
  p 6031107308950281118000000, p 6051424930794470705000000, p 6071518999779508888000000, p 6091388967471352694000000,
  p 6111034293592108521000000, p 6130454446033634097000000, p 6149648900870147324000000, p 6168617142371372007000000,
  p 6187358663014968889000000, p 6205872963498559880000000, p 6224159552751679439000000, p 6242217947947528191000000,
  p 6260047674514048269000000, p 6277648266145029014000000, p 6295019264810897824000000, p 6312160220768997521000000,
  p 6329070692573737084000000, p 6345750247086559374000000, p 6362198459485234048000000, p 6378414913273239804000000,
  p 6394399200288775412000000, p 6410150920713220818000000, p 6425669683079451681000000, p 6440955104280241504000000,
  p 6456006809575557011000000, p 6470824432600300220000000, p 6485407615371427750000000, p 6499756008294696290000000,
  p 6513869270171348223000000, p 6527747068204360972000000, p 6541389078004332044000000, p 6554794983595226172000000,
  p 6567964477419838826000000, p 6580897260344645630000000, p 6593593041664774952000000, p 6606051539108486956000000,
  p 6618272478841292703000000, p 6630255595469773146000000, p 6642000632045462309000000, p 6653507340067833613000000,
  p 6664775479487444060000000, p 6675804818708704590000000, p 6686595134592149964000000, p 6697146212456646201000000,
  p 6707457846081225049000000, p 6717529837706530740000000, p 6727361998036060324000000, p 6736954146237270416000000,
  p 6746306109941899859000000, p 6755417725246546518000000, p 6764288836712718453000000, p 6772919297366427130000000,
  p 6781308968697770216000000, p 6789457720660085904000000, p 6797365431668761157000000, p 6805031988599864745000000,
  p 6812457286788422932000000, p 6819641230026336071000000, p 6826583730560172904000000, p 6833284709088562406000000,
  p 6839744094759197916000000, p 6845961825165754536000000, p 6851937846344421414000000, p 6857672112770065408000000,
  p 6863164587352167494000000, p 6868415241430599581000000, p 6873424054770853157000000, p 6878191015559132621000000,
  p 6882716120397189274000000, p 6886999374296765876000000, p 6891040790673802659000000, p 6894840391342384016000000,
  p 6898398206508320890000000, p 6901714274762464282000000, p 6904788643073838349000000, p 6907621366782335480000000,
  p 6910212509591190204000000, p 6912562143559207624000000, p 6914670349092657056000000, p 6916537214936804845000000,
  p 6918162838167385593000000, p 6919547324181552113000000, p 6920690786688650162000000, p 6921593347700764204000000,
  p 6922255137522799993000000, p 6922676294742526396000000, p 6922856966220088983000000, p 6922797307077469854000000,
  p 6922497480687494695000000, p 6921957658662647277000000, p 6921178020843555233000000, p 6920158755287243377000000,
  p 6918900058255136355000000, p 6917402134200631957000000, p 6915665195756572070000000, p 6913689463722363232000000,
  p 6911475167050803135000000, p 6909022542834677288000000, p 6906331836293051231000000, p 6903403300757206262000000,
  p 6900237197656595121000000, p 6896833796504112449000000, p 6893193374881395608000000, p 6889316218423775090000000,
  p 6885202620804891857000000, p 6880852883721138603000000, p 6876267316875729792000000, p 6871446237962625103000000,
  p 6866389972650062574000000, p 6861098854563938212000000, p 6855573225270810041000000, p 6849813434260680969000000,
  p 6843819838929652427000000, p 6837592804562022883000000, p 6831132704312368152000000, p 6824439919187302514000000,
  p 6817514838026905895000000, p 6810357857486005334000000, p 6802969382015039250000000]

/-- src/mid_qual_coeffs.h:8867-9357 -/
def row18 : List ℤ := [
  p 6795349823840840173000000, p 6787499602947032369000000, p 6779419147054295026000000, p 6771108891600118897000000,
  p 6762569279718645340000000, p 6753800762220058679000000, p 6744803797569659358000000, p 6735578851866829558000000,
  p 6726126398823781098000000, p 6716446919743777715000000, p 6706540903499473572000000, p 6696408846510721810000000,
  p 6686051252722231310000000, p 6675468633581092479000000, p 6664661508013801708000000, p 6653630402403252868000000,
  p 6642375850565436501000000, p 6630898393725916974000000, p 6619198580495818697000000, p 6607276966848027455000000,
  p 6595134116092807135000000, p 6582770598853190068000000, p 6570186993040347430000000, p 6557383883828532024000000,
  p 6544361863629765200000000, p 6531121532068494273000000, p 6517663495955828418000000, p 6503988369263496126000000,
  p 6490096773097868595000000, p 6475989335673465290000000, p 6461666692286146402000000, p 6447129485286573307000000,
  p 6432378364052904023000000, p 6417413984963501669000000, p 6402237011369443440000000, p 6386848113566725993000000,
  p 6371247968768246200000000, p 6355437261075630104000000, p 6339416681450814675000000, p 6323186927687332072000000,
  p 6306748704381460319000000, p 6290102722903216127000000, p 6273249701366842915000000, p 6256190364601539947000000,
  p 6238925444121603409000000, p 6221455678096378394000000, p 6203781811320301098000000, p 6185904595182402377000000,
  p 6167824787635738451000000, p 6149543153166621250000000, p 6131060462763654462000000, p 6112377493886431319000000,
  p 6093495030434251461000000, p 6074413862714446617000000, p 6055134787410531086000000, p 6035658607550299301000000,
  p 6015986132473565180000000, p 5996118177799611773000000, p 5976055565394830862000000, p 5955799123339871638000000,
  p 5935349685896335742000000, p 5914708093474063851000000, p 5893875192597413520000000, p 5872851835871784228000000,
  p 5851638881949887405000000, p 5830237195497769281000000, p 5808647647160703614000000, p 5786871113528757431000000,
  p 5764908477102479931000000, p 5742760626258068372000000, p 5720428455212475845000000, p 5697912863988505161000000,
  p 5675214758379520247000000, p 5652335049913827063000000, p 5629274655819525505000000, p 5606034498988434964000000,
  p 5582615507940102278000000, p 5559018616786007456000000, p 5535244765193075497000000, p 5511294898347202965000000,
  p 5487169966916853082000000, p 5462870927016082699000000, p 5438398740167652533000000, p 5413754373265985617000000,
  p 5388938798539878554000000, p 5363952993514991587000000, p 5338797940976386380000000, p 5313474628930733336000000,
  p 5287984050568284716000000, p 5262327204225020379000000, p 5236505093344458704000000, p 5210518726438943642000000,
  p 5184369117051558853000000, p 5158057283717254297000000, p 5131584249923997962000000, p 5104951044073938009000000,
  p 5078158699444293434000000, p 5051208254147947219000000, p 5024100751094270206000000, p 4996837237949561597000000,
  p 4969418767097050563000000, p 4941846395597707976000000, p 4914121185149825620000000, p 4886244202048923256000000,
  p 4858216517147876876000000, p 4830039205816460610000000, p 4801713347900548635000000, p 4773240027681999696000000,
  p 4744620333837661248000000, p 4715855359398496774000000, p 4686946201708766004000000, p 4657893962384831305000000,
  p 4628699747273872997000000, p 4599364666412680998000000, p 4569889833986226155000000, p 4540276368285730245000000,
  p 4510525391667553896000000, p 4480638030510998571000000, p 4450615415176297635000000, p 4420458679962983861000000,
  p 4390168963067502331000000, p 4359747406540913535000000, p 4329195156246743934000000, p 4298513361818440993000000,
  p 4267703176616687716000000, p 4236765757686999923000000, p 4205702265716817004000000, p 4174513864992584859000000,
  p 4143201723356988025000000, p 4111767012165847002000000, p 4080210906244747561000000, p 4048534583846148845000000,
  p 4016739226606062980000000, p 3984826019500159640000000, p 3952796150800858520000000, p 3920650812033510228000000,
  p 3888391197932561990000000, p 3856018506398098053000000, p 3823533938451900444000000, p 3790938698193385692000000,
  p 3758233992755888059000000, p 3725421032262469633000000, p 3692501029781640638000000, p 3659475201283434505000000,
  p 3626344765595013262000000, p 3593110944356045673000000, p 3559774961974752384000000, p 3526338045583284498000000,
  p 3492801424992763443000000, p 3459166332649254126000000, p 3425434003588802637000000, p 3391605675392603183000000,
  p 3357682588142465140000000, p 3323665984375805214000000, p 3289557109040659125000000, p 3255357209450969978000000,
  p 3221067535241439045000000, p 3186689338322209585000000, p 3152223872834365986000000, p 3117672395104289281000000,
  p 3083036163598390413000000, p 3048316438878282807000000, p 3013514483555253254000000, p 2978631562244791336000000,
  p 2943668941521508740000000, p 2908627889873591481000000, p 2873509677657236534000000, p 2838315577051415874000000,
  p 2803046862012236774000000, p 2767704808227306433000000, p 2732290693070368523000000, p 2696805795555646135000000,
  p 2661251396291865103000000, p 2625628777437285198000000, p 2589939222653528730000000, p 2554184017059778645000000,
  p 2518364447187545607000000, p 2482481800934628873000000, p 2446537367519292707000000, p 2410532437434731619000000,
  p 2374468302403188666000000, p 2338346255330031251000000, p 2302167590258195982000000, p 2265933602322244955000000,
  p 2229645587702456296000000, p 2193304843579210479000000, p 2156912668087114255000000, p 2120470360268848775000000,
  p 2083979220029832588000000, p 2047440548092295705000000, p 2010855645948924318000000, p 1974225815817752788000000,
  p 1937552360595998311000000, p 1900836583814144746000000, p 1864079789590423900000000, p 1827283282584888074000000,
  p 1790448367953500174000000, p 1753576351302636900000000, p 1716668538643245211000000, p 1679726236344770019000000,
  p 1642750751090128790000000, p 1605743389829516077000000, p 1568705459734606169000000, p 1531638268153382625000000,
  p 1494543122564397954000000, p 1457421330530673988000000, p 1420274199654805941000000, p 1383103037533093931000000,
  p 1345909151709942953000000, p 1308693849632633225000000, p 1271458438605769592000000, p 1234204225745722493000000,
  p 1196932517935541621000000, p 1159644621779514851000000, p 1122341843557540884000000, p 1085025489180590878000000,
  p 1047696864144956634000000, p 1010357273487016375000000, p 973008021738604005100000, p 935650412881629495000000,
  p 898285750302984858600000, p 860915336749836640500000, p 823540474284585664700000, p 786162464239875680100000,
  p 748782607174056937500000, p 711402202826311494900000, p 674022550071834360300000, p 636644946877472058300000,
  p 599270690257075401700000, p 561901076226681284200000, p 524537399760574194400000, p 487180954746827964300000,
  p 449833033942466365100000, p 412494928929947406700000, p 375167930072648869300000, p 337853326470686251900000,
  p 300552405917171232100000, p 263266454854137112600000, p 225996758328540976000000, p 188744599948751588200000,
  p 151511261840710849800000, p 114298024604175504100000, p 77106167269447767250000, p 39936967253829567470000,
  p 2791700317938687076000, m 34328359477080237860000, m 71421939812839929410000, m 108487770157352612200000,
  m 145524581807325527300000, m 182531107931439303200000, m 219506083613262698300000, m 256448245893715052500000,
  m 293356333813831274000000, m 330229088457431455600000, m 367065252993286337600000, m 403863572717538560800000,
  m 440622795096291212200000, m 477341669807017734500000, m 514018948781116481200000, m 550653386245915040800000,
  m 587243738765984464600000, m 623788765285142343200000, m 660287227168129971800000, m 696737888241810189600000,
  m 733139514836664784300000, m 769490875828166562600000, m 805790742677633172600000, m 842037889473375069500000,
  m 878231092971712402000000, m 914369132637475818100000, m 950450790684740916100000, m 986474852117699956700000,
  m 1022440104770359166000000, m 1058345339347336938000000, m 1094189349464083291000000, m 1129970931686433621000000,
  m 1165688885570777744000000, m 1201342013703910611000000, m 1236929121742405546000000, m 1272449018452201722000000,
  m 1307900515748111831000000, m 1343282428732765982000000, m 1378593575735820786000000, m 1413832778353032917000000,
  m 1448998861484787756000000, m 1484090653374855280000000, m 1519106985649195177000000, m 1554046693353863806000000,
  m 1588908614993314291000000, m 1623691592568998667000000, m 1658394471616608931000000, m 1693016101244206473000000,
  m 1727555334169925648000000, m 1762011026759215462000000, m 1796382039062291176000000, m 1830667234851415890000000,
  m 1864865481657696205000000, m 1898975650808049824000000, m 1932996617462059107000000, m 1966927260648223749000000,
  m 2000766463300492765000000, m 2034513112294727716000000, m 2068166098484336760000000, m 2101724316736266682000000,
  m 2135186665967208318000000, m 2168552049178547325000000, m 2201819373492050046000000, m 2234987550185233221000000,
  m 2268055494726151262000000, m 2301022126808427697000000, m 2333886370386117903000000, m 2366647153708011098000000,
  m 2399303409352086715000000, m 2431854074260057091000000, m 2464298089770759585000000, m 2496634401654481122000000,
  m 2528861960146735859000000, m 2560979719981296490000000, m 2592986640423843546000000, m 2624881685305131569000000,
  m 2656663823053748933000000, m 2688332026728997796000000, m 2719885274053602739000000, m 2751322547445894662000000,
  m 2782642834052133449000000, m 2813845125778674950000000, m 2844928419323599321000000, m 2875891716208407896000000,
  m 2906734022809816763000000, m 2937454350390457467000000, m 2968051715130382625000000, m 2998525138158034207000000,
  m 3028873645580577780000000, m 3059096268514592369000000, m 3089192043116541740000000, m 3119160010612622488000000,
  m 3148999217328782557000000, m 3178708714720588410000000, m 3208287559402498920000000, m 3237734813177313604000000,
  m 3267049543065380160000000, m 3296230821333318017000000, m 3325277725522801740000000, m 3354189338479314931000000,
  m 3382964748380078417000000, m 3411603048762216952000000, m 3440103338551093754000000, m 3468464722087412095000000,
  m 3496686309155019445000000, m 3524767215008211586000000, m 3552706560398617795000000, m 3580503471602136754000000,
  m 3608157080445719388000000, m 3635666524333564052000000, m 3663030946273410169000000, m 3690249494902831870000000,
  m 3717321324514494697000000, m 3744245595082114440000000, m 3771021472285898159000000, m 3797648127537381953000000,
  m 3824124738004386695000000, m 3850450486636161976000000, m 3876624562187337870000000, m 3902646159242463032000000,
  m 3928514478240129927000000, m 3954228725496631257000000, m 3979788113229631996000000, m 4005191859581700049000000,
  m 4030439188643260111000000, m 4055529330475606507000000, m 4080461521133898692000000, m 4105235002689133252000000,
  m 4129849023250808937000000, m 4154302836989020968000000, m 4178595704155966400000000, m 4202726891107741794000000,
  m 4226695670325770517000000, m 4250501320437746929000000, m 4274143126238696792000000, m 4297620378711653442000000,
  m 4320932375048024306000000, m 4344078418667846400000000, m 4367057819239882240000000, m 4389869892701200524000000,
  m 4412513961276767240000000, m 4434989353498958696000000, m 4457295404226265315000000, m 4479431454662189706000000,
  m 4501396852374239289000000, m 4523190951311749711000000, m 4544813111824354442000000, m 4566262700679619979000000,
  m 4587539091081086970000000, m 4608641662685280908000000, m 4629569801619067178000000, m 4650322900496665218000000,
  m 4670900358436223809000000, m 4691301581076315688000000, m 4711525980592279512000000, m 4731572975712047477000000,
  m 4751441991731960787000000, m 4771132460532455898000000, m 4790643820592951040000000, m 4809975517007172505000000,
  m 4829127001498005611000000, m 4848097732431760204000000, m 4866887174832646053000000, m 4885494800396903044000000,
  m 4903920087506456922000000, m 4922162521242615801000000, m 4940221593399417993000000, m 4958096802496630290000000,
  m 4975787653792668186000000, m 4993293659297261093000000, m 5010614337783663927000000, m 5027749214800854814000000,
  m 5044697822685554126000000, m 5061459700573622475000000, m 5078034394411443976000000, m 5094421456967394499000000,
  m 5110620447842356695000000, m 5126630933480539470000000, m 5142452487179944437000000, m 5158084689102357054000000,
  m 5173527126283364655000000, m 5188779392642089115000000, m 5203841088990434662000000, m 5218711823042343489000000,
  m 5233391209422821530000000, m 5247878869676429921000000, m 5262174432275815508000000, m 5276277532629995888000000,
  m 5290187813092073719000000, m 5303904922967010022000000, m 5317428518519276039000000, m 5330758262979719275000000,
  m 5343893826552669792000000, m 5356834886422721237000000, m 5369581126761001875000000, m 5382132238731496786000000,
  m 5394487920496994493000000, m 5406647877224744769000000, m 5418611821091919543000000, m 5430379471290961921000000,
  m 5441950554034281212000000, m 5453324802559210774000000, m 5464501957132409000000000, m 5475481765054007917000000,
  m 5486263980661622124000000, m 5496848365334134831000000, m 5507234687495087509000000, m 5517422722615908208000000,
  m 5527412253218988089000000, m 5537203068880280910000000, m 5546794966231876484000000, m 5556187748964224599000000,
  m 5565381227828090915000000, m 5574375220636283886000000, m 5583169552265267177000000, m 5591764054656234335000000,
  m 5600158566816201659000000, m 5608352934818810510000000, m 5616347011804708085000000, m 5624140657981880481000000,
  m 5631733740625694332000000, m 5639126134078593228000000, m 5646317719749614598000000, m 5653308386113765210000000,
  m 5660098028710944772000000, m 5666686550144724686000000, m 5673073860081010583000000, m 5679259875246167946000000,
  m 5685244519425159022000000, m 5691027723459396968000000, m 5696609425244184531000000, m 5701989569726047778000000,
  m 5707168108899937121000000, m 5712145001805884505000000, m 5716920214525669265000000, m 5721493720179172612000000,
  m 5725865498920420724000000, m 5730035537933482991000000, m 5734003831428073628000000, m 5737770380634884398000000,
  m 5741335193800762952000000, m 5744698286183617074000000, m 5747859680046954640000000, m 5750819404654401029000000,
  m 5753577496263847027000000, m 5756133998121295767000000, m 5758488960454629865000000]

/-- src/mid_qual_coeffs.h:9358-9848 -/
def row19 : List ℤ := [
  m 5760642440467061108000000, m 5762594502330276557000000, m 5764345217177457154000000, m 5765894663096021375000000,
  m 5767242925120047957000000, m 5768390095222626635000000, m 5769336272307825503000000, m 5770081562202492714000000,
  m 5770626077647791896000000, m 5770969938290536339000000, m 5771113270674273384000000, m 5771056208230092993000000,
  m 5770798891267278456000000, m 5770341466963654388000000, m 5769684089355788144000000, m 5768826919328847759000000,
  m 5767770124606282946000000, m 5766513879739304863000000, m 5765058366096107410000000, m 5763403771850841330000000,
  m 5761550291972360183000000, m 5759498128212799800000000, m 5757247489095821194000000, m 5754798589904737242000000,
  m 5752151652670304573000000, m 5749306906158418301000000, m 5746264585857417326000000, m 5743024933965339314000000,
  m 5739588199376801855000000, m 5735954637669731827000000, m 5732124511091887462000000, m 5728098088547114129000000,
  m 5723875645581376348000000, m 5719457464368605908000000, m 5714843833696320145000000, m 5710035048950971338000000,
  m 5705031412103126094000000, m 5699833231692421828000000, m 5694440822812321147000000, m 5688854507094511480000000,
  m 5683074612693328996000000, m 5677101474269804354000000, m 5670935432975417884000000, m 5664576836435869511000000,
  m 5658026038734486132000000, m 5651283400395358363000000, m 5644349288366428720000000, m 5637224076002280565000000,
  m 5629908143046623466000000, m 5622401875614797644000000, m 5614705666175856882000000, m 5606819913534460617000000,
  m 5598745022812777299000000, m 5590481405431858668000000, m 5582029479093036581000000, m 5573389667759065698000000,
  m 5564562401635037188000000, m 5555548117148957632000000, m 5546347256932469307000000, m 5536960269801018825000000,
  m 5527387610733961593000000, m 5517629740854538764000000, m 5507687127409508984000000, m 5497560243748650897000000,
  m 5487249569304123407000000, m 5476755589569555320000000, m 5466078796078850492000000, m 5455219686385071043000000,
  m 5444178764038858261000000, m 5432956538566696518000000, m 5421553525449183258000000, m 5409970246098881781000000,
  m 5398207227838059535000000, m 5386265003876284166000000, m 5374144113287762821000000, m 5361845100988515793000000,
  m 5349368517713386229000000, m 5336714919992844273000000, m 5323884870129526672000000, m 5310878936174783307000000,
  m 5297697691904897609000000, m 5284341716797013797000000, m 5270811596005200300000000, m 5257107920336114189000000,
  m 5243231286224355955000000, m 5229182295708024661000000, m 5214961556403790825000000, m 5200569681481813193000000,
  m 5186007289640676317000000, m 5171275005081935223000000, m 5156373457484576817000000, m 5141303281979350305000000,
  m 5126065119122860843000000, m 5110659614871465410000000, m 5095087420555121857000000, m 5079349192850967330000000,
  m 5063445593756649502000000, m 5047377290563756676000000, m 5031144955830874933000000, m 5014749267356379860000000,
  m 4998190908151411288000000, m 4981470566412372729000000, m 4964588935493342327000000, m 4947546713878460400000000,
  m 4930344605154042027000000, m 4912983317980409471000000, m 4895463566063884206000000, m 4877786068128373009000000,
  m 4859951547886717273000000, m 4841960734012339812000000, m 4823814360110226414000000, m 4805513164687893503000000,
  m 4787057891126509333000000, m 4768449287651493028000000, m 4749688107303068514000000, m 4730775107906834941000000,
  m 4711711052043954587000000, m 4692496707021306945000000, m 4673132844841568212000000, m 4653620242173053985000000,
  m 4633959680319325175000000, m 4614151945188955245000000, m 4594197827264898462000000, m 4574098121573604014000000,
  m 4553853627654556868000000, m 4533465149529050144000000, m 4512933495668993052000000, m 4492259478965969499000000,
  m 4471443916699681734000000, m 4450487630506389652000000, m 4429391446347472408000000, m 4408156194477506028000000,
  m 4386782709412401747000000, m 4365271829897467148000000, m 4343624398875207092000000, m 4321841263453010153000000,
  m 4299923274870868888000000, m 4277871288468871117000000, m 4255686163654327780000000, m 4233368763869363970000000,
  m 4210919956557983464000000, m 4188340613132744694000000, m 4165631608942124524000000, m 4142793823237044155000000,
  m 4119828139137546828000000, m 4096735443599462505000000, m 4073516627380817552000000, m 4050172585008088300000000,
  m 4026704214742578627000000, m 4003112418546494848000000, m 3979398102048788133000000, m 3955562174511448835000000,
  m 3931605548795043606000000, m 3907529141324321900000000, m 3883333872054159450000000, m 3859020664434970483000000,
  m 3834590445377801179000000, m 3810044145220108352000000, m 3785382697690729305000000, m 3760607039874977464000000,
  m 3735718112179840789000000, m 3710716858298840175000000, m 3685604225176778142000000, m 3660381162974708259000000,
  m 3635048625034529874000000, m 3609607567843351687000000, m 3584058950998464648000000, m 3558403737171414102000000,
  m 3532642892072276625000000, m 3506777384414233069000000, m 3480808185877566976000000, m 3454736271073653459000000,
  m 3428562617509220856000000, m 3402288205550159199000000, m 3375914018385334312000000, m 3349441041990512940000000,
  m 3322870265092074931000000, m 3296202679130518995000000, m 3269439278224235603000000, m 3242581059132984556000000,
  m 3215629021221136623000000, m 3188584166421351042000000, m 3161447499197880904000000, m 3134220026509443140000000,
  m 3106902757772898611000000, m 3079496704826179768000000, m 3052002881891233491000000, m 3024422305537325609000000,
  m 2996755994643815913000000, m 2969004970363028125000000, m 2941170256083290319000000, m 2913252877391622753000000,
  m 2885253862036404882000000, m 2857174239890283938000000, m 2829015042912739596000000, m 2800777305112483843000000,
  m 2772462062510372156000000, m 2744070353101861481000000, m 2715603216819092655000000, m 2687061695493841041000000,
  m 2658446832819667035000000, m 2629759674314175420000000, m 2601001267281559653000000, m 2572172660774762337000000,
  m 2543274905557640474000000, m 2514309054067365330000000, m 2485276160376539544000000, m 2456177280155086122000000,
  m 2427013470632891599000000, m 2397785790561519827000000, m 2368495300176185099000000, m 2339143061158176738000000,
  m 2309730136596644876000000, m 2280257590950501585000000, m 2250726490010642941000000, m 2221137900861748678000000,
  m 2191492891844142987000000, m 2161792532515914664000000, m 2132037893614715900000000, m 2102230047019522895000000,
  m 2072370065712753843000000, m 2042459023742025648000000, m 2012497996181746279000000, m 1982488059095505531000000,
  m 1952430289497423654000000, m 1922325765314248942000000, m 1892175565346879834000000, m 1861980769232540137000000,
  m 1831742457406565234000000, m 1801461711063749626000000, m 1771139612120748537000000, m 1740777243177608685000000,
  m 1710375687479514378000000, m 1679936028878809429000000, m 1649459351796739130000000, m 1618946741185152329000000,
  m 1588399282488579724000000, m 1557818061606006631000000, m 1527204164852439747000000, m 1496558678921360800000000,
  m 1465882690846186413000000, m 1435177287962096163000000, m 1404443557868347014000000, m 1373682588389944824000000,
  m 1342895467539549376000000, m 1312083283479644836000000, m 1281247124484429173000000, m 1250388078901738288000000,
  m 1219507235115286064000000, m 1188605681506627954000000, m 1157684506417155576000000, m 1126744798110420470000000,
  m 1095787644734223234000000, m 1064814134282495578000000, m 1033825354558100479000000, m 1002822393134637259000000,
  m 971806337318645752300000, m 940778274112330568800000, m 909739290175649037800000, m 878690471788633339000000,
  m 847632904814035075800000, m 816567674659697930300000, m 785495866240939642400000, m 754418563943343709900000,
  m 723336851585250221000000, m 692251812380277370600000, m 661164528900251829300000, m 630076083037866001500000,
  m 598987555969212768700000, m 567900028117040468800000, m 536814579113566062000000, m 505732287762980059300000,
  m 474654232005043837900000, m 443581488877852934400000, m 412515134480872418600000, m 381456243938341492600000,
  m 350405891362388607100000, m 319365149816220629800000, m 288335091277700590800000, m 257316786602653998800000,
  m 226311305488246660100000, m 195319716436756848800000, m 164343086719118141800000, m 133382482338344698300000,
  m 102438967993699801500000, m 71513607044445802480000, m 40607461473294696210000, m 9721591850978506961000,
  p 21142942700004228320000, p 51985084541340749770000, p 82803777554482023190000, p 113597967176477202400000,
  p 144366600435731130300000, p 175108625987343224100000, p 205822994148665254400000, p 236508656934997658300000,
  p 267164568094310761700000, p 297789683142922023500000, p 328382959400711708500000, p 358943356025775940300000,
  p 389469834049650939200000, p 419961356412266778500000, p 450416887996511479000000, p 480835395663040945600000,
  p 511215848284989862900000, p 541557216782256227800000, p 571858474156028417900000, p 602118595523208448300000,
  p 632336558150411792400000, p 662511341488156721800000, p 692641927205180497700000, p 722727299221769046800000,
  p 752766443744013955000000, p 782758349297593930400000, p 812702006760984024300000, p 842596409399218662700000,
  p 872440552897347522900000, p 902233435393516819200000, p 931974057512257453300000, p 961661422397647614600000,
  p 991294535746078996400000, p 1020872405839189220000000, p 1050394043576713919000000, p 1079858462508892026000000,
  p 1109264678869032166000000, p 1138611711606159508000000, p 1167898582416887618000000, p 1197124315777641380000000,
  p 1226287938977123869000000, p 1255388482147646321000000, p 1284424978297214444000000, p 1313396463341261720000000,
  p 1342301976133983494000000, p 1371140558499856681000000, p 1399911255265045423000000, p 1428613114288360044000000,
  p 1457245186492357606000000, p 1485806525894543947000000, p 1514296189637582809000000, p 1542713238020385329000000,
  p 1571056734528679779000000, p 1599325745865064338000000, p 1627519341979322695000000, p 1655636596098959516000000,
  p 1683676584758636531000000, p 1711638387830293406000000, p 1739521088552928828000000, p 1767323773561953974000000,
  p 1795045532918754802000000, p 1822685460140049864000000, p 1850242652226873844000000, p 1877716209693638732000000,
  p 1905105236597268506000000, p 1932408840565385134000000, p 1959626132825301008000000, p 1986756228232504189000000,
  p 2013798245298583332000000, p 2040751306219602563000000, p 2067614536904160191000000, p 2094387067001018086000000,
  p 2121068029926911468000000, p 2147656562894180009000000, p 2174151806937958762000000, p 2200552906943514797000000,
  p 2226859011673432923000000, p 2253069273794340837000000, p 2279182849903754401000000, p 2305198900556928998000000,
  p 2331116590292945431000000, p 2356935087661107646000000, p 2382653565247446273000000, p 2408271199700206047000000,
  p 2433787171755937354000000, p 2459200666265206562000000, p 2484510872217927761000000, p 2509716982768781229000000,
  p 2534818195262510468000000, p 2559813711258733526000000, p 2584702736556887884000000, p 2609484481221010978000000,
  p 2634158159604097892000000, p 2658722990372467711000000, p 2683178196530202741000000, p 2707523005442828787000000,
  p 2731756648861188418000000, p 2755878362945540609000000, p 2779887388288521111000000, p 2803782969938773285000000,
  p 2827564357424144394000000, p 2851230804774506321000000, p 2874781570544672135000000, p 2898215917837115331000000,
  p 2921533114324276637000000, p 2944732432270912893000000, p 2967813148556457201000000, p 2990774544696485262000000,
  p 3013615906864853481000000, p 3036336525915313191000000, p 3058935697402620935000000, p 3081412721603982684000000,
  p 3103766903540138098000000, p 3125997552996097415000000, p 3148103984541865321000000, p 3170085517553074619000000,
  p 3191941476231148055000000, p 3213671189623497435000000, p 3235273991643583535000000, p 3256749221090551871000000,
  p 3278096221668838108000000, p 3299314342007806430000000, p 3320402935680577799000000, p 3341361361223338291000000,
  p 3362188982154282711000000, p 3382885166991949754000000, p 3403449289273917117000000, p 3423880727575133193000000,
  p 3444178865525837196000000, p 3464343091829586406000000, p 3484372800281016272000000, p 3504267389783244022000000,
  p 3524026264365286154000000, p 3543648833199253018000000, p 3563134510617204688000000, p 3582482716127922268000000,
  p 3601692874433685704000000, p 3620764415446356844000000, p 3639696774303642895000000, p 3658489391385378979000000,
  p 3677141712328920765000000, p 3695653188044961245000000, p 3714023274732975843000000, p 3732251433896327086000000,
  p 3750337132357291214000000, p 3768279842272032314000000, p 3786079041145031313000000, p 3803734211843578725000000,
  p 3821244842612192810000000, p 3838610427086299598000000, p 3855830464306348338000000, p 3872904458731434279000000,
  p 3889831920252616142000000, p 3906612364206113464000000, p 3923245311386667870000000, p 3939730288060007066000000,
  p 3956066825975685687000000, p 3972254462379548427000000, p 3988292740025841873000000, p 4004181207189359305000000,
  p 4019919417677315747000000, p 4035506930840823160000000, p 4050943311586462786000000, p 4066228130387594675000000,
  p 4081360963295126848000000, p 4096341391948555080000000, p 4111169003586640988000000, p 4125843391057633890000000,
  p 4140364152829604551000000, p 4154730893000543879000000, p 4168943221308011454000000, p 4183000753138837839000000,
  p 4196903109538612647000000, p 4210649917220717249000000, p 4224240808575441611000000, p 4237675421678794088000000,
  p 4250953400301008510000000, p 4264074393914951515000000, p 4277038057704423205000000, p 4289844052571995490000000,
  p 4302492045146744624000000, p 4314981707792066995000000, p 4327312718612767208000000, p 4339484761462323106000000,
  p 4351497525949929619000000, p 4363350707447043869000000, p 4375044007094105493000000, p 4386577131806783381000000,
  p 4397949794282120933000000, p 4409161713004424582000000, p 4420212612251062968000000, p 4431102222097900098000000,
  p 4441830278424586248000000, p 4452396522919782954000000, p 4462800703085907476000000, p 4473042572243796609000000,
  p 4483121889537429461000000, p 4493038419937902574000000, p 4502791934247656579000000, p 4512382209104331618000000,
  p 4521809026984370365000000, p 4531072176206488340000000, p 4540171450934924781000000]

/-- src/mid_qual_coeffs.h:9849-10339 -/
def row20 : List ℤ := [
  p 4549106651182468868000000, p 4557877582813230077000000, p 4566484057545462313000000, p 4574925892953676798000000,
  p 4583202912471058543000000, p 4591314945391482098000000, p 4599261826871218518000000, p 4607043397930500953000000,
  p 4614659505455063343000000, p 4622110002197181260000000, p 4629394746776697989000000, p 4636513603681825975000000,
  p 4643466443269638616000000, p 4650253141766504811000000, p 4656873581268203451000000, p 4663327649739880919000000,
  p 4669615241015780474000000, p 4675736254798893571000000, p 4681690596660054333000000, p 4687478178037338475000000,
  p 4693098916234863735000000, p 4698552734421495777000000, p 4703839561629405766000000, p 4708959332752409369000000,
  p 4713911988544038610000000, p 4718697475615455869000000, p 4723315746433216084000000, p 4727766759316703697000000,
  p 4732050478435455114000000, p 4736166873806320690000000, p 4740115921290258966000000, p 4743897602589097068000000,
  p 4747511905242071673000000, p 4750958822622026491000000, p 4754238353931534294000000, p 4757350504198843734000000,
  p 4760295284273534724000000, p 4763072710821988215000000, p 4765682806322732792000000, p 4768125599061496384000000,
  p 4770401123126112239000000, p 4772509418401224557000000, p 4774450530562803288000000, p 4776224511072367507000000,
  p 4777831417171191433000000, p 4779271311874143564000000, p 4780544263963396566000000, p 4781650347981974969000000,
  p 4782589644227001890000000, p 4783362238742911929000000, p 4783968223314291092000000, p 4784407695458635194000000,
  p 4784680758418889679000000, p 4784787521155786476000000, p 4784728098339967491000000, p 4784502610343958039000000,
  p 4784111183233913898000000, p 4783553948761199229000000, p 4782831044353722492000000, p 4781942613107168297000000,
  p 4780888803775931728000000, p 4779669770763955543000000, p 4778285674115347915000000, p 4776736679504747785000000,
  p 4775022958227586982000000, p 4773144687190138125000000, p 4771102048899315308000000, p 4768895231452421890000000,
  p 4766524428526530514000000, p 4763989839367813693000000, p 4761291668780665357000000, p 4758430127116572601000000,
  p 4755405430262867744000000, p 4752217799631248789000000, p 4748867462146190606000000, p 4745354650233048199000000,
  p 4741679601806093186000000, p 4737842560256323027000000, p 4733843774439056018000000, p 4729683498661394446000000,
  p 4725361992669504727000000, p 4720879521635661623000000, p 4716236356145177104000000, p 4711432772183105425000000,
  p 4706469051120798150000000, p 4701345479702258821000000, p 4696062350030363181000000, p 4690619959552788827000000,
  p 4685018611047945744000000, p 4679258612610599777000000, p 4673340277637261925000000, p 4667263924811666104000000,
  p 4661029878089801952000000, p 4654638466684837481000000, p 4648090025051992286000000, p 4641384892873112386000000,
  p 4634523415041101081000000, p 4627505941644230111000000, p 4620332827950229641000000, p 4613004434390162271000000,
  p 4605521126542302252000000, p 4597883275115636527000000, p 4590091255933311139000000, p 4582145449915960532000000,
  p 4574046243064703796000000, p 4565794026444139168000000, p 4557389196165105225000000, p 4548832153367305883000000,
  p 4540123304201661332000000, p 4531263059812683236000000, p 4522251836320559382000000, p 4513090054803079593000000,
  p 4503778141277483583000000, p 4494316526682071156000000, p 4484705646857625912000000, p 4474945942528844173000000,
  p 4465037859285438636000000, p 4454981847563084171000000, p 4444778362624400916000000, p 4434427864539561802000000,
  p 4423930818166788188000000, p 4413287693132868922000000, p 4402498963813366271000000, p 4391565109312529566000000,
  p 4380486613443475979000000, p 4369263964707845692000000, p 4357897656275384196000000, p 4346388185963572307000000,
  p 4334736056216855447000000, p 4322941774085857329000000, p 4311005851206450509000000, p 4298928803778674299000000,
  p 4286711152545371641000000, p 4274353422770974312000000, p 4261856144219899542000000, p 4249219851134773164000000,
  p 4236445082214794142000000, p 4223532380593727868000000, p 4210482293817702573000000, p 4197295373823123690000000,
  p 4183972176914277710000000, p 4170513263740736540000000, p 4156919199274843393000000, p 4143190552788877760000000,
  p 4129327897832121494000000, p 4115331812207879796000000, p 4101202877950318321000000, p 4086941681300994104000000,
  p 4072548812685718687000000, p 4058024866690759444000000, p 4043370442039175353000000, p 4028586141567082508000000,
  p 4013672572199714940000000, p 3998630344927217410000000, p 3983460074780616894000000, p 3968162380807431500000000,
  p 3952737886047156222000000, p 3937187217506841509000000, p 3921511006136331814000000, p 3905709886803421325000000,
  p 3889784498269030499000000, p 3873735483162124571000000, p 3857563487954449033000000, p 3841269162935409976000000,
  p 3824853162186731513000000, p 3808316143556624445000000, p 3791658768634564251000000, p 3774881702725334850000000,
  p 3757985614823200309000000, p 3740971177586059192000000, p 3723839067309297080000000, p 3706589963899609153000000,
  p 3689224550848805868000000, p 3671743515207359729000000, p 3654147547557918662000000, p 3636437341988761271000000,
  p 3618613596067114194000000, p 3600677010812189296000000, p 3582628290668520964000000, p 3564468143478903995000000,
  p 3546197280457082969000000, p 3527816416160854066000000, p 3509326268464615234000000, p 3490727558531959724000000,
  p 3472021010788268764000000, p 3453207352893112106000000, p 3434287315712483343000000, p 3415261633291183548000000,
  p 3396131042824906097000000, p 3376896284632138930000000, p 3357558102126441055000000, p 3338117241788100212000000,
  p 3318574453135853409000000, p 3298930488698833836000000, p 3279186103988065894000000, p 3259342057467902540000000,
  p 3239399110527660820000000, p 3219358027452897016000000, p 3199219575396654910000000, p 3178984524350792536000000,
  p 3158653647117045261000000, p 3138227719278043320000000, p 3117707519168386610000000, p 3097093827845529956000000,
  p 3076387429060422479000000, p 3055589109228624457000000, p 3034699657400736789000000, p 3013719865232946261000000,
  p 2992650526957824943000000, p 2971492439354675094000000, p 2950246401719819854000000, p 2928913215837176693000000,
  p 2907493685948391113000000, p 2885988618722985528000000, p 2864398823228692017000000, p 2842725110901413860000000,
  p 2820968295515210045000000, p 2799129193152381703000000, p 2777208622173344722000000, p 2755207403186302022000000,
  p 2733126359017294411000000, p 2710966314679887166000000, p 2688728097344569943000000, p 2666412536308747794000000,
  p 2644020462966144118000000, p 2621552710776254777000000, p 2599010115233981767000000, p 2576393513838965907000000,
  p 2553703746064897410000000, p 2530941653328996465000000, p 2508108078961208878000000, p 2485203868173368330000000,
  p 2462229868028545116000000, p 2439186927410158957000000, p 2416075896990872805000000, p 2392897629201985385000000,
  p 2369652978202388318000000, p 2346342799847234845000000, p 2322967951657346677000000, p 2299529292787887494000000,
  p 2276027683997213814000000, p 2252463987615875487000000, p 2228839067515365081000000, p 2205153789076810898000000,
  p 2181409019159898099000000, p 2157605626071547843000000, p 2133744479534392148000000, p 2109826450655884981000000,
  p 2085852411896614491000000, p 2061823237038882400000000, p 2037739801155580462000000, p 2013602980578607649000000,
  p 1989413652867336787000000, p 1965172696777325780000000, p 1940880992228753666000000, p 1916539420274824797000000,
  p 1892148863070418265000000, p 1867710203840475388000000, p 1843224326848352281000000, p 1818692117364423310000000,
  p 1794114461634471833000000, p 1769492246847830050000000, p 1744826361106280831000000, p 1720117693392081773000000,
  p 1695367133536294360000000, p 1670575572187476751000000, p 1645743900779866138000000, p 1620873011501667562000000,
  p 1595963797263604900000000, p 1571017151667191249000000, p 1546033968972988044000000, p 1521015144069164928000000,
  p 1495961572439740870000000, p 1470874150132881874000000, p 1445753773729432012000000, p 1420601340311212438000000,
  p 1395417747429216100000000, p 1370203893072276463000000, p 1344960675635436999000000, p 1319688993887953559000000,
  p 1294389746942198587000000, p 1269063834221833068000000, p 1243712155430169502000000, p 1218335610518807895000000,
  p 1192935099655980085000000, p 1167511523194946117000000, p 1142065781642656467000000, p 1116598775628199151000000,
  p 1091111405871064265000000, p 1065604573150193265000000, p 1040079178272161099000000, p 1014536122039705508000000,
  p 988976305220637527300000, p 963400628516408947000000, p 937809992530398749500000, p 912205297737096287700000,
  p 886587444450545364600000, p 860957332793038112300000, p 835315862664045877400000, p 809663933708944976200000,
  p 784002445287727161600000, p 758332296444063215300000, p 732654385874126931400000, p 706969611895272623800000,
  p 681278872415495644600000, p 655583064902061861900000, p 629883086350485382900000, p 604179833253934753800000,
  p 578474201572144004400000, p 552767086700498575300000, p 527059383439429916300000, p 501351985963549768600000,
  p 475645787790855787600000, p 449941681752241500400000, p 424240559960780967500000, p 398543313781059358900000,
  p 372850833798832857500000, p 347164009790483323300000, p 321483730692377492700000, p 295810884570825525400000,
  p 270146358591698515300000, p 244491038989781348000000, p 218845811039050436000000, p 193211559022264938300000,
  p 167589166200798645200000, p 141979514784775629100000, p 116383485902988323500000, p 90801959572872563530000,
  p 65235814670822807610000, p 39685928902289801120000, p 14153178771941013410000, m 11361560445837979190000,
  m 36857414736624813630000, m 62333511375729712830000, m 87788978957344950640000, m 113222947424026270600000,
  m 138634548096415449900000, m 164022913702029505900000, m 189387178404720963100000, m 214726477833880011500000,
  m 240039949113319834700000, m 265326730890365130800000, m 290585963364865145500000, m 315816788317859734000000,
  m 341018349140407997900000, m 366189790862530303900000, m 391330260181333409700000, m 416438905489917624500000,
  m 441514876905890784400000, m 466557326299413092900000, m 491565407321706109000000, m 516538275433323155900000,
  m 541475087932100432300000, m 566375003981289077900000, m 591237184637607386000000, m 616060792878935013600000,
  m 640844993632183807800000, m 665588953801088834700000, m 690291842293641404700000, m 714952830049659792000000,
  m 739571090068464145400000, m 764145797435733043300000, m 788676129351100234000000, m 813161265155374398500000,
  m 837600386357264408700000, m 861992676660536640300000, m 886337321990964335800000, m 910633510522892292100000,
  m 934880432706013293800000, m 959077281292018452200000, m 983223251360896156200000, m 1007317540347393760000000,
  m 1031359348067371288000000, m 1055347876743798321000000, m 1079282331032872973000000, m 1103161918050193230000000,
  m 1126985847396292945000000, m 1150753331182444985000000, m 1174463584056664733000000, m 1198115823228773158000000,
  m 1221709268496098044000000, m 1245243142268706409000000, m 1268716669594726698000000, m 1292129078185285437000000,
  m 1315479598439576363000000, m 1338767463469831996000000, m 1361991909125918757000000, m 1385152174020064155000000,
  m 1408247499551500484000000, m 1431277129930693922000000, m 1454240312203730623000000, m 1477136296276721460000000,
  m 1499964334939427003000000, m 1522723683889551892000000, m 1545413601756638697000000, m 1568033350125479317000000,
  m 1590582193559895432000000, m 1613059399626286944000000, m 1635464238916811133000000, m 1657795985072696692000000,
  m 1680053914807436762000000, m 1702237307929605750000000, m 1724345447365808852000000, m 1746377619183488899000000,
  m 1768333112613376928000000, m 1790211220072026894000000, m 1812011237184359483000000, m 1833732462805593788000000,
  m 1855374199043387804000000, m 1876935751280139810000000, m 1898416428194394214000000, m 1919815541782765632000000,
  m 1941132407381545959000000, m 1962366343688017826000000, m 1983516672781830519000000, m 2004582720146246000000000,
  m 2025563814689034306000000, m 2046459288763445052000000, m 2067268478189149012000000, m 2087990722272514005000000,
  m 2108625363827364759000000, m 2129171749195417525000000, m 2149629228266253678000000, m 2169997154497448153000000,
  m 2190274884934827540000000, m 2210461780231850852000000, m 2230557204669511573000000, m 2250560526175888424000000,
  m 2270471116345387352000000, m 2290288350458061575000000, m 2310011607498777247000000, m 2329640270176030863000000,
  m 2349173724940810479000000, m 2368611362005447821000000, m 2387952575361773893000000, m 2407196762799759023000000,
  m 2426343325925832840000000, m 2445391670180653045000000, m 2464341204857272739000000, m 2483191343118929147000000,
  m 2501941502016568220000000, m 2520591102506413057000000, m 2539139569467366644000000, m 2557586331718083271000000,
  m 2575930822034069867000000, m 2594172477164655502000000, m 2612310737849619143000000, m 2630345048835790091000000,
  m 2648274858893711736000000, m 2666099620833527282000000, m 2683818791521430137000000, m 2701431831895659361000000,
  m 2718938206982106972000000, m 2736337385910116073000000, m 2753628841928082958000000, m 2770812052418673236000000,
  m 2787886498914084795000000, m 2804851667111195410000000, m 2821707046886314831000000, m 2838452132309977633000000,
  m 2855086421661626791000000, m 2871609417443870063000000, m 2888020626396830062000000, m 2904319559512375058000000,
  m 2920505732047843240000000, m 2936578663539903596000000, m 2952537877818393365000000, m 2968382903019509307000000,
  m 2984113271599235766000000, m 2999728520346587983000000, m 3015228190396442107000000, m 3030611827242448916000000,
  m 3045878980749762779000000, m 3061029205167420213000000, m 3076062059140731875000000, m 3090977105723610816000000,
  m 3105773912390295301000000, m 3120452051047446773000000, m 3135011098045851000000000, m 3149450634191777038000000,
  m 3163770244758400824000000, m 3177969519497181924000000, m 3192048052648650044000000, m 3206005442953415753000000,
  m 3219841293662882402000000, m 3233555212549738163000000, m 3247146811918333580000000, m 3260615708614970649000000,
  m 3273961524037847983000000, m 3287183884146954813000000, m 3300282419473945898000000]

/-- src/mid_qual_coeffs.h:10340-10830 -/
def row21 : List ℤ := [
  m 3313256765131388035000000, m 3326106560822374766000000, m 3338831450849741658000000, m 3351431084124936385000000,
  m 3363905114177034080000000, m 3376253199161451720000000, m 3388475001868394929000000, m 3400570189731295673000000,
  m 3412538434835073447000000, m 3424379413924034769000000, m 3436092808409844674000000, m 3447678304379220206000000,
  m 3459135592601427899000000, m 3470464368535605606000000, m 3481664332338145051000000, m 3492735188869478067000000,
  m 3503676647700983398000000, m 3514488423121893499000000, m 3525170234145498342000000, m 3535721804515668410000000,
  m 3546142862713040720000000, m 3556433141960935532000000, m 3566592380231240096000000, m 3576620320250127605000000,
  m 3586516709503422690000000, m 3596281300242057128000000, m 3605913849487172532000000, m 3615414119035089031000000,
  m 3624781875462130404000000, m 3634016890129343393000000, m 3643118939186847528000000, m 3652087803578167157000000,
  m 3660923269044518390000000, m 3669625126128547854000000, m 3678193170178239296000000, m 3686627201350598133000000,
  m 3694927024614957402000000, m 3703092449756340086000000, m 3711123291378629757000000, m 3719019368907363048000000,
  m 3726780506592602352000000, m 3734406533511572604000000, m 3741897283570940706000000, m 3749252595509212048000000,
  m 3756472312898792663000000, m 3763556284147850147000000, m 3770504362502080480000000, m 3777316406046367283000000,
  m 3783992277706055545000000, m 3790531845248291259000000, m 3796934981283062692000000, m 3803201563264069045000000,
  m 3809331473489480698000000, m 3815324599102492154000000, m 3821180832091690231000000, m 3826900069291290420000000,
  m 3832482212381238800000000, m 3837927167886933180000000, m 3843234847179125956000000, m 3848405166473366397000000,
  m 3853438046829377878000000, m 3858333414150259474000000, m 3863091199181578703000000, m 3867711337510172393000000,
  m 3872193769562859086000000, m 3876538440605043021000000, m 3880745300738961193000000, m 3884814304901970314000000,
  m 3888745412864550582000000, m 3892538589228145950000000, m 3896193803422893370000000, m 3899711029705122192000000,
  m 3903090247154752078000000, m 3906331439672412927000000, m 3909434595976584749000000, m 3912399709600357205000000,
  m 3915226778888166587000000, m 3917915806992373212000000, m 3920466801869527430000000, m 3922879776276664253000000,
  m 3925154747767281398000000, m 3927291738687243607000000, m 3929290776170455378000000, m 3931151892134469514000000,
  m 3932875123275766070000000, m 3934460511065054726000000, m 3935908101742302198000000, m 3937217946311609602000000,
  m 3938390100535934558000000, m 3939424624931701403000000, m 3940321584763133850000000, m 3941081050036555553000000,
  m 3941703095494455619000000, m 3942187800609389323000000, m 3942535249577733963000000, m 3942745531313335446000000,
  m 3942818739440887704000000, m 3942754972289228867000000, m 3942554332884494299000000, m 3942216928943031128000000,
  m 3941742872864203474000000, m 3941132281723077127000000, m 3940385277262857880000000, m 3939501985887263955000000,
  m 3938482538652625202000000, m 3937327071259984906000000, m 3936035724046917962000000, m 3934608641979189456000000,
  m 3933045974642384625000000, m 3931347876233246517000000, m 3929514505550905229000000, m 3927546025988009996000000,
  m 3925442605521611492000000, m 3923204416703933092000000, m 3920831636653061489000000, m 3918324447043317234000000,
  m 3915683034095645242000000, m 3912907588567761559000000, m 3909998305744150082000000, m 3906955385425940445000000,
  m 3903779031920649300000000, m 3900469454031675262000000, m 3897026865047791694000000, m 3893451482732350217000000,
  m 3889743529312430018000000, m 3885903231467805006000000, m 3881930820319770895000000, m 3877826531419789266000000,
  m 3873590604738051408000000, m 3869223284651833548000000, m 3864724819933798745000000, m 3860095463739974392000000,
  m 3855335473597807771000000, m 3850445111393919345000000, m 3845424643361781015000000, m 3840274340069216134000000,
  m 3834994476405804119000000, m 3829585331570091195000000, m 3824047189056697070000000, m 3818380336643277615000000,
  m 3812585066377283723000000, m 3806661674562735343000000, m 3800610461746657676000000, m 3794431732705532551000000,
  m 3788125796431556381000000, m 3781692966118731149000000, m 3775133559148876466000000, m 3768447897077481165000000,
  m 3761636305619407011000000, m 3754699114634452769000000, m 3747636658112845406000000, m 3740449274160518797000000,
  m 3733137304984277937000000, m 3725701096876886820000000, m 3718141000201972447000000, m 3710457369378748413000000,
  m 3702650562866803552000000, m 3694720943150495932000000, m 3686668876723368099000000, m 3678494734072485558000000,
  m 3670198889662527626000000, m 3661781721919766825000000, m 3653243613216015755000000, m 3644584949852377066000000,
  m 3635806122042791778000000, m 3626907523897678672000000, m 3617889553407238439000000, m 3608752612424709263000000,
  m 3599497106649548681000000, m 3590123445610456706000000, m 3580632042648162171000000, m 3571023314898366923000000,
  m 3561297683274315326000000, m 3551455572449258805000000, m 3541497410839016240000000, m 3531423630584204758000000,
  m 3521234667532369914000000, m 3510930961220162707000000, m 3500512954855232971000000, m 3489981095298013043000000,
  m 3479335833043572124000000, m 3468577622203109813000000, m 3457706920485475663000000, m 3446724189178615450000000,
  m 3435629893130785414000000, m 3424424500731675439000000, m 3413108483893568211000000, m 3401682318032267678000000,
  m 3390146482047778562000000, m 3378501458305260829000000, m 3366747732615492372000000, m 3354885794215431861000000,
  m 3342916135748656269000000, m 3330839253245621457000000, m 3318655646103869407000000, m 3306365817068164341000000,
  m 3293970272210492659000000, m 3281469520909809610000000, m 3268864075832096476000000, m 3256154452909865681000000,
  m 3243341171321727050000000, m 3230424753472059020000000, m 3217405724970275223000000, m 3204284614610130970000000,
  m 3191061954349007183000000, m 3177738279286955372000000, m 3164314127645715714000000, m 3150790040747690913000000,
  m 3137166562994750038000000, m 3123444241846907912000000, m 3109623627801088620000000, m 3095705274369599767000000,
  m 3081689738058659631000000, m 3067577578346661511000000, m 3053369357662615892000000, m 3039065641364304196000000,
  m 3024666997716279893000000, m 3010173997868069093000000, m 2995587215832107037000000, m 2980907228461414805000000,
  m 2966134615427604322000000, m 2951269959198489588000000, m 2936313845015648023000000, m 2921266860872063793000000,
  m 2906129597489543002000000, m 2890902648296036527000000, m 2875586609403050879000000, m 2860182079582837024000000,
  m 2844689660245392285000000, m 2829109955415830442000000, m 2813443571711165062000000, m 2797691118317198206000000,
  m 2781853206965567444000000, m 2765930451910405142000000, m 2749923469905029855000000, m 2733832880178655930000000,
  m 2717659304412960858000000, m 2701403366718493470000000, m 2685065693611249100000000, m 2668646913988958948000000,
  m 2652147659107355164000000, m 2635568562556528296000000, m 2618910260237033646000000, m 2602173390335892674000000,
  m 2585358593302913149000000, m 2568466511826471982000000, m 2551497790809392156000000, m 2534453077345014821000000,
  m 2517333020692906660000000, m 2500138272254545137000000, m 2482869485549130378000000, m 2465527316189183686000000,
  m 2448112421856053246000000, m 2430625462275586793000000, m 2413067099193515457000000, m 2395437996350861017000000,
  m 2377738819459388267000000, m 2359970236176915561000000, m 2342132916082428039000000, m 2324227530651535624000000,
  m 2306254753231608366000000, m 2288215259016646800000000, m 2270109725022718267000000, m 2251938830062802550000000,
  m 2233703254721757653000000, m 2215403681331401357000000, m 2197040793945345162000000, m 2178615278313802191000000,
  m 2160127821858526947000000, m 2141579113647586359000000, m 2122969844369911388000000, m 2104300706310353007000000,
  m 2085572393324111509000000, m 2066785600811316733000000, m 2047941025691830778000000, m 2029039366379810014000000,
  m 2010081322757941834000000, m 1991067596152308085000000, m 1971998889306684696000000, m 1952875906356931314000000,
  m 1933699352805522955000000, m 1914469935495878268000000, m 1895188362586646812000000, m 1875855343526154195000000,
  m 1856471589026665713000000, m 1837037811038482382000000, m 1817554722724549782000000, m 1798023038434415962000000,
  m 1778443473678384488000000, m 1758816745101955681000000, m 1739143570459826147000000, m 1719424668589985454000000,
  m 1699660759387984109000000, m 1679852563780959759000000, m 1660000803701673373000000, m 1640106202062704792000000,
  m 1620169482730468092000000, m 1600191370499156251000000, m 1580172591064934106000000, m 1560113870999902536000000,
  m 1540015937725948587000000, m 1519879519489000450000000, m 1499705345332960410000000, m 1479494145073417723000000,
  m 1459246649271984464000000, m 1438963589210077998000000, m 1418645696862837679000000, m 1398293704873217408000000,
  m 1377908346525861779000000, m 1357490355720993502000000, m 1337040466948488182000000, m 1316559415261761524000000,
  m 1296047936251628783000000, m 1275506766020409032000000, m 1254936641155806731000000, m 1234338298704700052000000,
  m 1213712476147361160000000, m 1193059911371356424000000, m 1172381342645225462000000, m 1151677508592832168000000,
  m 1130949148167145670000000, m 1110197000624171988000000, m 1089421805497093210000000, m 1068624302570199370000000,
  m 1047805231852810999000000, m 1026965333553471645000000, m 1006105348053915310000000, m 985226015882924169600000,
  m 964328077690788454700000, m 943412274223083178100000, m 922479346294711359900000, m 901530034764292027300000,
  m 880565080508113233800000, m 859585224394222120400000, m 838591207256752092600000, m 817583769870023182100000,
  m 796563652922681114300000, m 775531596992081189100000, m 754488342518454127900000, m 733434629779122012000000,
  m 712371198862937890200000, m 691298789644575876500000, m 670218141758675205000000, m 649129994574622229200000,
  m 628035087170672142800000, m 606934158308319524100000, m 585827946407061254100000, m 564717189518709381500000,
  m 543602625301877352000000, m 522484990996695979900000, m 501365023399334371900000, m 480243458836560153000000,
  m 459121033140553558400000, m 437998481623542740700000, m 416876539052463742500000, m 395755939623895585100000,
  m 374637416938820530000000, m 353521703977312891300000, m 332409533073710968400000, m 311301635891503725600000,
  m 290198743398010930500000, m 269101585839812368400000, m 248010892717611427900000, m 226927392761297366600000,
  m 205851813905256347600000, m 184784883263499488500000, m 163727327104836882400000, m 142679870828330338200000,
  m 121643238938591176300000, m 100618155020973642200000, m 79605341717430821710000, m 58605520701707763270000,
  m 37619412654844302670000, m 16647737241032252230000, p 4308786916777418395000, p 25249442261465224290000,
  p 46173512325570144520000, p 67080281755667843580000, p 87969036336539948490000, p 108839063015083879700000,
  p 129689649924390372400000, p 150520086407763338700000, p 171329663042450925700000, p 192117671663517857900000,
  p 212883405387808501200000, p 233626158637240024600000, p 254345227162740825700000, p 275039908067870497900000,
  p 295709499832049025000000, p 316353302334173333400000, p 336970616876039745700000, p 357560746205503622800000,
  p 378122994539787109100000, p 398656667588730714900000, p 419161072577739425700000, p 439635518270889164700000,
  p 460079314993964083000000, p 480491774657188105100000, p 500872210778096228100000, p 521219938504472553000000,
  p 541534274636621478100000, p 561814537650261007500000, p 582060047719083913600000, p 602270126736934659400000,
  p 622444098340347250700000, p 642581287930875789800000, p 662681022697158856500000, p 682742631637128847900000,
  p 702765445580127534400000, p 722748797208735494300000, p 742692021080727750000000, p 762594453650963376300000,
  p 782455433292954401700000, p 802274300320557007300000, p 822050397009708370800000, p 841783067619617506900000,
  p 861471658414213821600000, p 881115517683728807100000, p 900713995765530504300000, p 920266445065440544200000,
  p 939772220078823289200000, p 959230677411386902300000, p 978641175800122002000000, p 998003076134143171600000,
  p 1017315741475221472000000, p 1036578537078426676000000, p 1055790830412810157000000, p 1074951991181429456000000,
  p 1094061391341947468000000, p 1113118405126884260000000, p 1132122409063526704000000, p 1151072781993976247000000,
  p 1169968905095373829000000, p 1188810161899367390000000, p 1207595938312021073000000, p 1226325622633510403000000,
  p 1244998605577525390000000, p 1263614280290770555000000, p 1282172042372397734000000, p 1300671289893093026000000,
  p 1319111423414271074000000, p 1337491846007299702000000, p 1355811963272073170000000, p 1374071183356116678000000,
  p 1392268916973370173000000, p 1410404577422572948000000, p 1428477580605932301000000, p 1446487345047604844000000,
  p 1464433291911865567000000, p 1482314845021392470000000, p 1500131430875424566000000, p 1517882478667638424000000,
  p 1535567420304092797000000, p 1553185690421066351000000, p 1570736726402627162000000, p 1588219968398199610000000,
  p 1605634859340192852000000, p 1622980844961099131000000, p 1640257373810766412000000, p 1657463897273776625000000,
  p 1674599869586108989000000, p 1691664747852199713000000, p 1708657992061789416000000, p 1725579065106435956000000,
  p 1742427432796153251000000, p 1759202563875899824000000, p 1775903930041798466000000, p 1792531005957390599000000,
  p 1809083269269802161000000, p 1825560200625598760000000, p 1841961283686681383000000, p 1858286005146181450000000,
  p 1874533854743861251000000, p 1890704325281656207000000, p 1906796912639322069000000, p 1922811115789372412000000,
  p 1938746436812379759000000, p 1954602380912081987000000, p 1970378456430132031000000, p 1986074174860973356000000,
  p 2001689050866565373000000, p 2017222602290807444000000, p 2032674350173998678000000, p 2048043818767303348000000,
  p 2063330535546624347000000, p 2078534031226882996000000, p 2093653839775990073000000, p 2108689498428448217000000,
  p 2123640547699173764000000, p 2138506531397074868000000, p 2153286996638395425000000]

/-- src/mid_qual_coeffs.h:10831-11321 -/
def row22 : List ℤ := [
  p 2167981493860067672000000, p 2182589576832948131000000, p 2197110802674765578000000, p 2211544731863112831000000,
  p 2225890928248291500000000, p 2240148959065886135000000, p 2254318394949334468000000, p 2268398809942501117000000,
  p 2282389781511697489000000, p 2296290890558011326000000, p 2310101721429425048000000, p 2323821861932480904000000,
  p 2337450903344211531000000, p 2350988440423793392000000, p 2364434071423979471000000, p 2377787398102497712000000,
  p 2391048025733382223000000, p 2404215563117993119000000, p 2417289622596026366000000, p 2430269820056439947000000,
  p 2443155774948088145000000, p 2455947110290321138000000, p 2468643452683565512000000, p 2481244432319493643000000,
  p 2493749682991208260000000, p 2506158842103532389000000, p 2518471550682654415000000, p 2530687453386055476000000,
  p 2542806198512199186000000, p 2554827438009952927000000, p 2566750827488028207000000, p 2578576026224283120000000,
  p 2590302697174739870000000, p 2601930506982593188000000, p 2613459125987208781000000, p 2624888228232539339000000,
  p 2636217491475929559000000, p 2647446597196567285000000, p 2658575230603616758000000, p 2669603080644457251000000,
  p 2680529840012854485000000, p 2691355205156608157000000, p 2702078876285465316000000, p 2712700557378752275000000,
  p 2723219956192732012000000, p 2733636784268051335000000, p 2743950756936901388000000, p 2754161593330125245000000,
  p 2764269016384091754000000, p 2774272752847487845000000, p 2784172533288072678000000, p 2793968092099038871000000,
  p 2803659167505471745000000, p 2813245501570652441000000, p 2822726840202000216000000, p 2832102933157104076000000,
  p 2841373534049636881000000, p 2850538400354873936000000, p 2859597293415329540000000, p 2868549978446168890000000,
  p 2877396224540415721000000, p 2886135804674087087000000, p 2894768495711248345000000, p 2903294078408756324000000,
  p 2911712337420998588000000, p 2920023061304563312000000, p 2928226042522448589000000, p 2936321077448524140000000,
  p 2944307966371676865000000, p 2952186513499686655000000, p 2959956526963172449000000, p 2967617818819377837000000,
  p 2975170205055635737000000, p 2982613505592885978000000, p 2989947544288984287000000, p 2997172148941820886000000,
  p 3004287151292384453000000, p 3011292387027667342000000, p 3018187695783343134000000, p 3024972921146413390000000,
  p 3031647910657729941000000, p 3038212515814171961000000, p 3044666592070964864000000, p 3051009998843695181000000,
  p 3057242599510207048000000, p 3063364261412289662000000, p 3069374855857465775000000, p 3075274258120358657000000,
  p 3081062347444011359000000, p 3086739007041273616000000, p 3092304124095627584000000, p 3097757589762248180000000,
  p 3103099299168879128000000, p 3108329151416238442000000, p 3113447049578764794000000, p 3118452900704853439000000,
  p 3123346615817120323000000, p 3128128109912504864000000, p 3132797301962238733000000, p 3137354114911583905000000,
  p 3141798475679602812000000, p 3146130315158656571000000, p 3150349568213764873000000, p 3154456173681932912000000,
  p 3158450074371231108000000, p 3162331217059796348000000, p 3166099552494640226000000, p 3169755035390428230000000,
  p 3173297624428003498000000, p 3176727282252777857000000, p 3180043975473134145000000, p 3183247674658491993000000,
  p 3186338354337373176000000, p 3189315992995267468000000, p 3192180573072400922000000, p 3194932080961300318000000,
  p 3197570507004361944000000, p 3200095845491074311000000, p 3202508094655288125000000, p 3204807256672301957000000,
  p 3206993337655733231000000, p 3209066347654356693000000, p 3211026300648765937000000, p 3212873214547867090000000,
  p 3214607111185313528000000, p 3216228016315740221000000, p 3217735959610870146000000, p 3219130974655540038000000,
  p 3220413098943549195000000, p 3221582373873347390000000, p 3222638844743665101000000, p 3223582560748949020000000,
  p 3224413574974700422000000, p 3225131944392623570000000, p 3225737729855760252000000, p 3226230996093340693000000,
  p 3226611811705618407000000, p 3226880249158540267000000, p 3227036384778259569000000, p 3227080298745538083000000,
  p 3227012075090032305000000, p 3226831801684429662000000, p 3226539570238458506000000, p 3226135476292774952000000,
  p 3225619619212705298000000, p 3224992102181876985000000, p 3224253032195735502000000, p 3223402520054850524000000,
  p 3222440680358239391000000, p 3221367631496409572000000, p 3220183495644391575000000, p 3218888398754539415000000,
  p 3217482470549333680000000, p 3215965844513928723000000, p 3214338657888662562000000, p 3212601051661398508000000,
  p 3210753170559755773000000, p 3208795163043211274000000, p 3206727181295085643000000, p 3204549381214389162000000,
  p 3202261922407568812000000, p 3199864968180095737000000, p 3197358685527955120000000, p 3194743245129035014000000,
  p 3192018821334329133000000, p 3189185592159078479000000, p 3186243739273775938000000, p 3183193447995021248000000,
  p 3180034907276285770000000, p 3176768309698567959000000, p 3173393851460874944000000, p 3169911732370632538000000,
  p 3166322155834024998000000, p 3162625328846011691000000, p 3158821461980536316000000, p 3154910769380357954000000,
  p 3150893468746836582000000, p 3146769781329705144000000, p 3142539931916596158000000, p 3138204148822476384000000,
  p 3133762663879072815000000, p 3129215712424018078000000, p 3124563533290001041000000, p 3119806368793799026000000,
  p 3114944464725088839000000, p 3109978070335288163000000, p 3104907438326199622000000, p 3099732824838568115000000,
  p 3094454489440481588000000, p 3089072695115736237000000, p 3083587708252070320000000, p 3077999798629237928000000,
  p 3072309239406976079000000, p 3066516307113003898000000, p 3060621281630690471000000, p 3054624446186762158000000,
  p 3048526087338923607000000, p 3042326494963238075000000, p 3036025962241496040000000, p 3029624785648536538000000,
  p 3023123264939250182000000, p 3016521703135749584000000, p 3009820406514262647000000, p 3003019684591857596000000,
  p 2996119850113346684000000, p 2989121219037761418000000, p 2982024110524918864000000, p 2974828846921910314000000,
  p 2967535753749285955000000, p 2960145159687361388000000, p 2952657396562342450000000, p 2945072799332293465000000,
  p 2937391706073043916000000, p 2929614457964117239000000, p 2921741399274326110000000, p 2913772877347440594000000,
  p 2905709242587780836000000, p 2897550848445556472000000, p 2889298051402259399000000, p 2880951210955871779000000,
  p 2872510689606090108000000, p 2863976852839279080000000, p 2855350069113483588000000, p 2846630709843348331000000,
  p 2837819149384793703000000, p 2828915765019764540000000, p 2819920936940854394000000, p 2810835048235748104000000,
  p 2801658484871638339000000, p 2792391635679681173000000, p 2783034892338986759000000, p 2773588649361064060000000,
  p 2764053304073732162000000, p 2754429256604993409000000, p 2744716909867203191000000, p 2734916669540638640000000,
  p 2725028944057295878000000, p 2715054144584646070000000, p 2704992685008992485000000, p 2694844981919068683000000,
  p 2684611454589479716000000, p 2674292524963851891000000, p 2663888617638195903000000, p 2653400159844075245000000,
  p 2642827581431544774000000, p 2632171314852272716000000, p 2621431795142368203000000, p 2610609459905350628000000,
  p 2599704749294742996000000, p 2588718105996834842000000, p 2577649975213395280000000, p 2566500804644023491000000,
  p 2555271044468700008000000, p 2543961147330263840000000, p 2532571568316566504000000, p 2521102764942793461000000,
  p 2509555197133725695000000, p 2497929327205613594000000, p 2486225619848467586000000, p 2474444542107927681000000,
  p 2462586563366985989000000, p 2450652155328139452000000, p 2438641791994881208000000, p 2426555949653485568000000,
  p 2414395106854730095000000, p 2402159744395282459000000, p 2389850345299295020000000, p 2377467394799912676000000,
  p 2365011380320476697000000, p 2352482791455937604000000, p 2339882119954158745000000, p 2327209859696953605000000,
  p 2314466506681304384000000, p 2301652559000488645000000, p 2288768516824943571000000, p 2275814882383315422000000,
  p 2262792159943301674000000, p 2249700855792603326000000, p 2236541478219529824000000, p 2223314537493816054000000,
  p 2210020545847378622000000, p 2196660017454760746000000, p 2183233468413771448000000, p 2169741416726110421000000,
  p 2156184382277632951000000, p 2142562886818841217000000, p 2128877453945395536000000, p 2115128609078061831000000,
  p 2101316879443378572000000, p 2087442794053693575000000, p 2073506883687126212000000, p 2059509680868122899000000,
  p 2045451719847147815000000, p 2031333536580870631000000, p 2017155668712222825000000, p 2002918655550166901000000,
  p 1988623038049674649000000, p 1974269358791686316000000, p 1959858161962736278000000, p 1945389993334805528000000,
  p 1930865400245184143000000, p 1916284931575938004000000, p 1901649137733726815000000, p 1886958570629326121000000,
  p 1872213783657358148000000, p 1857415331675654020000000, p 1842563770984821095000000, p 1827659659307861919000000,
  p 1812703555769396577000000, p 1797696020875166499000000, p 1782637616491516801000000, p 1767528905824542742000000,
  p 1752370453399503328000000, p 1737162825040222550000000, p 1721906587847995586000000, p 1706602310181241358000000,
  p 1691250561634494382000000, p 1675851913017376233000000, p 1660406936334171343000000, p 1644916204762585966000000,
  p 1629380292632956429000000, p 1613799775407441560000000, p 1598175229658840412000000, p 1582507233049731780000000,
  p 1566796364311578808000000, p 1551043203223481659000000, p 1535248330591260438000000, p 1519412328226500599000000,
  p 1503535778925233629000000, p 1487619266447016281000000, p 1471663375493708400000000, p 1455668691688514430000000,
  p 1439635801554599043000000, p 1423565292494039739000000, p 1407457752766748870000000, p 1391313771469078866000000,
  p 1375133938512706957000000, p 1358918844603545064000000, p 1342669081220287117000000, p 1326385240593261914000000,
  p 1310067915683326301000000, p 1293717700160362414000000, p 1277335188382117083000000, p 1260920975373108679000000,
  p 1244475656802885178000000, p 1227999828965276432000000, p 1211494088756838276000000, p 1194959033655338494000000,
  p 1178395261698955308000000, p 1161803371464544335000000, p 1145183962046487751000000, p 1128537633035503777000000,
  p 1111864984497099029000000, p 1095166616950379737000000, p 1078443131346856028000000, p 1061695129048896872000000,
  p 1044923211808546732000000, p 1028127981746343499000000, p 1011310041329766506000000, p 994469993352113017600000,
  p 977608440911125354400000, p 960725987387863042100000, p 943823236425184435700000, p 926900791906595886800000,
  p 909959257935117065000000, p 892999238811766158500000, p 876021339014455770400000, p 859026163176871142500000,
  p 842014316067002843900000, p 824986402566049714700000, p 807943027647359973200000, p 790884796354979192000000,
  p 773812313782610596000000, p 756726185052581756600000, p 739627015294445260300000, p 722515409624027477200000,
  p 705391973122228288500000, p 688257310814097828000000, p 671112027647512393400000, p 653956728472241104900000,
  p 636792018019040535200000, p 619618500878382446600000, p 602436781479590596600000, p 585247464069990012300000,
  p 568051152693705200200000, p 550848451170867100200000, p 533639963076863841000000, p 516426291721016760200000,
  p 499208040126263973700000, p 481985811008080015900000, p 464760206753435704000000, p 447531829400559010400000,
  p 430301280617738043400000, p 413069161682770862200000, p 395836073462404287300000, p 378602616391431729400000,
  p 361369390452191360300000, p 344136995154099357200000, p 326906029512844008900000, p 309677092029979025100000,
  p 292450780672558099500000, p 275227692852427732900000, p 258008425405925763900000, p 240793574573623539500000,
  p 223583735979723417400000, p 206379504611909952900000, p 189181474800996279800000, p 171990240200848996000000,
  p 154806393767943607200000, p 137630527741331966900000, p 120463233622649480200000, p 103305102155790731400000,
  p 86156723307000577250000, p 69018686245007849830000, p 51891579320829536670000, p 34775990047991402520000,
  p 17672505082834700360000, p 581710204248301181500, m 16495809705561657010000, m 33559470681040619610000,
  m 50608689693206138430000, m 67642884668737694360000, m 84661474510006545040000, m 101663879114438911500000,
  m 118649519393869854500000, m 135617817294218589300000, m 152568195814738725500000, m 169500079027221669900000,
  m 186412892095513973000000, m 203306061294611714700000, m 220179014029704353300000, m 237031178855529170200000,
  m 253861985495265553500000, m 270670864859615220800000, m 287457249065580574100000, m 304220571455602847100000,
  m 320960266616262071000000, m 337675770396929256000000, m 354366519928725563100000, m 371031953643050343300000,
  m 387671511290055401000000, m 404284633957417412300000, m 420870764088693792800000, m 437429345501566839100000,
  m 453959823406637180300000, m 470461644425185883000000, m 486934256607634891000000, m 503377109451947561500000,
  m 519789653921198975500000, m 536171342462045050200000, m 552521629022520964500000, m 568839969069821261600000,
  m 585125819608364825700000, m 601378639197434742600000, m 617597887968754301500000, m 633783027644347057200000,
  m 649933521553975354500000, m 666048834652500356900000, m 682128433537542724000000, m 698171786466657024600000,
  m 714178363374693607800000, m 730147635890831311200000, m 746079077355949740400000, m 761972162839559411300000,
  m 777826369156663262300000, m 793641174884906781100000, m 809416060381284475900000, m 825150507798778258900000,
  m 840844001103278047300000, m 856496026090068358700000, m 872106070400229687600000, m 887673623537333159100000,
  m 903198176883694020000000, m 918679223716504025900000, m 934116259224475570100000, m 949508780523473602300000,
  m 964856286672815307400000, m 980158278691447160800000, m 995414259573373016700000, m 1010623734303864448000000,
  m 1025786209875047131000000, m 1040901195301440711000000, m 1055968201635741534000000, m 1070986741984194471000000,
  m 1085956331521887100000000, m 1100876487508279170000000, m 1115746729302316814000000, m 1130566578377481058000000,
  m 1145335558337052737000000, m 1160053194928943512000000, m 1174719016060653959000000]

/-- src/mid_qual_coeffs.h:11322-11812 -/
def row23 : List ℤ := [
  m 1189332551813925259000000, m 1203893334459678853000000, m 1218400898472508107000000, m 1232854780545124436000000,
  m 1247254519603012684000000, m 1261599656818680358000000, m 1275889735625817742000000, m 1290124301733684611000000,
  m 1304302903141093184000000, m 1318425090150261410000000, m 1332490415381103839000000, m 1346498433784584650000000,
  m 1360448702656653561000000, m 1374340781652071998000000, m 1388174232797503328000000, m 1401948620505332962000000,
  m 1415663511586873723000000, m 1429318475265512877000000, m 1442913083190082305000000, m 1456446909447817748000000,
  m 1469919530577209208000000, m 1483330525581101579000000, m 1496679475939345985000000, m 1509965965621383032000000,
  m 1523189581099033789000000, m 1536349911358841913000000, m 1549446547914526797000000, m 1562479084819148097000000,
  m 1575447118677479521000000, m 1588350248658021132000000, m 1601188076504874184000000, m 1613960206549843856000000,
  m 1626666245724121959000000, m 1639305803569900697000000, m 1651878492252147100000000, m 1664383926569994523000000,
  m 1676821723968053039000000, m 1689191504547871842000000, m 1701492891079052754000000, m 1713725509010190912000000,
  m 1725888986480212696000000, m 1737982954328848046000000, m 1750007046107611257000000, m 1761960898090625654000000,
  m 1773844149284828755000000, m 1785656441440761815000000, m 1797397419062814672000000, m 1809066729419389922000000,
  m 1820664022553250549000000, m 1832188951291454900000000, m 1843641171255244173000000, m 1855020340870024891000000,
  m 1866326121375043879000000, m 1877558176832909952000000, m 1888716174139296001000000, m 1899799783032231045000000,
  m 1910808676101479224000000, m 1921742528797605902000000, m 1932601019441257569000000, m 1943383829232062055000000,
  m 1954090642257417729000000, m 1964721145501425147000000, m 1975275028853488470000000, m 1985751985116759443000000,
  m 1996151710016768731000000, m 2006473902209661517000000, m 2016718263290338559000000, m 2026884497800854421000000,
  m 2036972313238080614000000, m 2046981420061782467000000, m 2056911531702530337000000, m 2066762364569079986000000,
  m 2076533638056201822000000, m 2086225074552036565000000, m 2095836399445395824000000, m 2105367341133113860000000,
  m 2114817631027121354000000, m 2124187003561391670000000, m 2133475196198975597000000, m 2142681949438734676000000,
  m 2151807006821945725000000, m 2160850114939025929000000, m 2169811023435881496000000, m 2178689485020306616000000,
  m 2187485255468139562000000, m 2196198093629492948000000, m 2204827761434732889000000, m 2213374023900284253000000,
  m 2221836649134557341000000, m 2230215408343553217000000, m 2238510075836361475000000, m 2246720429030736946000000,
  m 2254846248458377590000000, m 2262887317770027190000000, m 2270843423740868169000000, m 2278714356275198406000000,
  m 2286499908411471476000000, m 2294199876327154743000000, m 2301814059343170252000000, m 2309342259928545520000000,
  m 2316784283704942469000000, m 2324139939450758745000000, m 2331409039105489245000000, m 2338591397773778866000000,
  m 2345686833729308720000000, m 2352695168418789898000000, m 2359616226465625476000000, m 2366449835673515266000000,
  m 2373195827030067078000000, m 2379854034710134764000000, m 2386424296079064315000000, m 2392906451695991574000000,
  m 2399300345316785193000000, m 2405605823897073291000000, m 2411822737594990392000000, m 2417950939773975960000000,
  m 2423990287005361316000000, m 2429940639070788267000000, m 2435801858964683261000000, m 2441573812896472625000000,
  m 2447256370292683753000000, m 2452849403799065367000000, m 2458352789282454952000000, m 2463766405832544266000000,
  m 2469090135763703404000000, m 2474323864616379855000000, m 2479467481158641965000000, m 2484520877387640884000000,
  m 2489483948530601086000000, m 2494356593046149172000000, m 2499138712625235004000000, m 2503830212191987797000000,
  m 2508430999904583906000000, m 2512940987155854854000000, m 2517360088573823793000000, m 2521688222022191658000000,
  m 2525925308600637711000000, m 2530071272644994311000000, m 2534126041727406946000000, m 2538089546656280455000000,
  m 2541961721476165836000000, m 2545742503467477054000000, m 2549431833146199172000000, m 2553029654263378346000000,
  m 2556535913804529412000000, m 2559950561988982767000000, m 2563273552269072515000000, m 2566504841329154615000000,
  m 2569644389084662327000000, m 2572692158680916618000000, m 2575648116491852883000000, m 2578512232118726401000000,
  m 2581284478388535478000000, m 2583964831352494450000000, m 2586553270284343634000000, m 2589049777678469316000000,
  m 2591454339248050638000000, m 2593766943922974893000000, m 2595987583847706847000000, m 2598116254379029266000000,
  m 2600152954083700171000000, m 2602097684735915368000000, m 2603950451314773588000000, m 2605711262001578557000000,
  m 2607380128176964556000000, m 2608957064418064489000000, m 2610442088495431613000000, m 2611835221369905764000000,
  m 2613136487189372456000000, m 2614345913285426575000000, m 2615463530169873877000000, m 2616489371531168298000000,
  m 2617423474230767735000000, m 2618265878299298570000000, m 2619016626932676398000000, m 2619675766488092743000000,
  m 2620243346479944092000000, m 2620719419575551039000000, m 2621104041590865269000000, m 2621397271486054694000000,
  m 2621599171360936356000000, m 2621709806450329104000000, m 2621729245119329074000000, m 2621657558858413867000000,
  m 2621494822278536748000000, m 2621241113105987532000000, m 2620896512177283821000000, m 2620461103433857544000000,
  m 2619934973916676884000000, m 2619318213760788404000000, m 2618610916189677024000000, m 2617813177509622103000000,
  m 2616925097103871799000000, m 2615946777426744578000000, m 2614878323997642685000000, m 2613719845394937239000000,
  m 2612471453249755760000000, m 2611133262239682083000000, m 2609705390082333546000000, m 2608187957528867919000000,
  m 2606581088357365870000000, m 2604884909366092863000000, m 2603099550366718123000000, m 2601225144177377914000000,
  m 2599261826615687204000000, m 2597209736491587831000000, m 2595069015600168921000000, m 2592839808714354159000000,
  m 2590522263577480638000000, m 2588116530895784046000000, m 2585622764330814446000000, m 2583041120491725434000000,
  m 2580371758927477860000000, m 2577614842118926882000000, m 2574770535470858289000000, m 2571839007303886905000000,
  m 2568820428846241375000000, m 2565714974225561523000000, m 2562522820460441577000000, m 2559244147451999411000000,
  m 2555879137975350379000000, m 2552427977670860409000000, m 2548890855035479321000000, m 2545267961413874656000000,
  m 2541559490989460553000000, m 2537765640775423159000000, m 2533886610605586443000000, m 2529922603125147468000000,
  m 2525873823781459374000000, m 2521740480814609227000000, m 2517522785247862729000000, m 2513220950878219517000000,
  m 2508835194266660542000000, m 2504365734728393293000000, m 2499812794323096575000000, m 2495176597844889470000000,
  m 2490457372812371426000000, m 2485655349458532667000000, m 2480770760720511087000000, m 2475803842229359984000000,
  m 2470754832299672243000000, m 2465623971919132535000000, m 2460411504737971058000000, m 2455117677058338797000000,
  m 2449742737823678001000000, m 2444286938607828988000000, m 2438750533604205472000000, m 2433133779614897029000000,
  m 2427436936039533040000000, m 2421660264864217756000000, m 2415804030650362585000000, m 2409868500523330587000000,
  m 2403853944161117411000000, m 2397760633782941575000000, m 2391588844137620094000000, m 2385338852492089375000000,
  m 2379010938619688462000000, m 2372605384788281820000000, m 2366122475748636683000000, m 2359562498722322064000000,
  m 2352925743389808547000000, m 2346212501878410656000000, m 2339423068750080912000000, m 2332557740989229904000000,
  m 2325616817990466562000000, m 2318600601546145449000000, m 2311509395833970856000000, m 2304343507404537153000000,
  m 2297103245168618472000000, m 2289788920384601065000000, m 2282400846645691889000000, m 2274939339867196580000000,
  m 2267404718273537210000000, m 2259797302385340746000000, m 2252117415006508420000000, m 2244365381210991061000000,
  m 2236541528329695841000000, m 2228646185937323190000000, m 2220679685838953046000000, m 2212642362056764251000000,
  m 2204534550816645080000000, m 2196356590534531000000000, m 2188108821803062473000000, m 2179791587377859392000000,
  m 2171405232163728730000000, m 2162950103201105936000000, m 2154426549652156339000000, m 2145834922786777656000000,
  m 2137175575968873562000000, m 2128448864642174931000000, m 2119655146316225865000000, m 2110794780552320733000000,
  m 2101868128949198767000000, m 2092875555128855328000000, m 2083817424722296356000000, m 2074694105355035650000000,
  m 2065505966632739596000000, m 2056253380126815081000000, m 2046936719359723766000000, m 2037556359790489331000000,
  m 2028112678799986156000000, m 2018606055676321672000000, m 2009036871599933355000000, m 1999405509628864389000000,
  m 1989712354683912266000000, m 1979957793533612589000000, m 1970142214779297025000000, m 1960266008840141298000000,
  m 1950329567937958810000000, m 1940333286082108121000000, m 1930277559054421020000000, m 1920162784393713608000000,
  m 1909989361380793520000000, m 1899757691022988578000000, m 1889468176038648769000000, m 1879121220841985847000000,
  m 1868717231527378857000000, m 1858256615853903218000000, m 1847739783229880627000000, m 1837167144697080933000000,
  m 1826539112915175327000000, m 1815856102146073308000000, m 1805118528238050394000000, m 1794326808610024809000000,
  m 1783481362235813565000000, m 1772582609628096462000000, m 1761630972822604297000000, m 1750626875362130790000000,
  m 1739570742280604565000000, m 1728463000086948205000000, m 1717304076749042677000000, m 1706094401677717143000000,
  m 1694834405710432578000000, m 1683524521095187227000000, m 1672165181474358307000000, m 1660756821868290432000000,
  m 1649299878659098726000000, m 1637794789574415107000000, m 1626241993670769640000000, m 1614641931317498807000000,
  m 1602995044180207307000000, m 1591301775204105162000000, m 1579562568597891493000000, m 1567777869816914908000000,
  m 1555948125546735691000000, m 1544073783686638560000000, m 1532155293332825366000000, m 1520193104761887945000000,
  m 1508187669414200530000000, m 1496139439877064740000000, m 1484048869868059275000000, m 1471916414218397843000000,
  m 1459742528855953155000000, m 1447527670788567589000000, m 1435272298087297057000000, m 1422976869869402479000000,
  m 1410641846281582377000000, m 1398267688483028530000000, m 1385854858628626264000000, m 1373403819851821018000000,
  m 1360915036247790878000000, m 1348388972856510038000000, m 1335826095645604745000000, m 1323226871493403314000000,
  m 1310591768172013035000000, m 1297921254330072901000000, m 1285215799475769149000000, m 1272475873959882237000000,
  m 1259701948958351359000000, m 1246894496455535880000000, m 1234053989226921010000000, m 1221180900821773390000000,
  m 1208275705546386913000000, m 1195338878446561368000000, m 1182370895290567672000000, m 1169372232552012489000000,
  m 1156343367392464539000000, m 1143284777644328759000000, m 1130196941793702248000000, m 1117080338962963279000000,
  m 1103935448893619657000000, m 1090762751929138423000000, m 1077562728997507116000000, m 1064335861594093184000000,
  m 1051082631764306509000000, m 1037803522086443641000000, m 1024499015654222389000000, m 1011169596059586367000000,
  m 997815747375511074800000, m 984437954138511588100000, m 971036701331458610900000, m 957612474366355379200000,
  m 944165759066864550600000, m 930697041651096712200000, m 917206808714440195500000, m 903695547211903868700000,
  m 890163744441249660800000, m 876611888025489094000000, m 863040465895408438100000, m 849449966272691368500000,
  m 835840877652274660800000, m 822213688785205761400000, m 808568888661448316600000, m 794906966492427711000000,
  m 781228411693851232700000, m 767533713868559248200000, m 753823362789064342800000, m 740097848380415505500000,
  m 726357660703054073800000, m 712603289935389628600000, m 698835226356723702100000, m 685053960329962824400000,
  m 671259982284567384300000, m 657453782699159400100000, m 643635852084457069400000, m 629806680966209101200000,
  m 615966759867848782400000, m 602116579293463872000000, m 588256629710776253500000, m 574387401533835466000000,
  m 560509385106041290900000, m 546623070683159399700000, m 532728948416072239100000, m 518827508333840974600000,
  m 504919240326819258400000, m 491004634129287020900000, m 477084179302895300100000, m 463158365219510964800000,
  m 449227681044071628900000, m 435292615718094557700000, m 421353657942414271100000, m 407411296160436228600000,
  m 393466018541380755200000, m 379518312963249575200000, m 365568666996119991200000, m 351617567885457440700000,
  m 337665502535157435500000, m 323712957490909455400000, m 309760418923591361900000, m 295808372612384466900000,
  m 281857303928254466400000, m 267907697817254509500000, m 253960038784064841600000, m 240014810875217350500000,
  m 226072497662656296700000, m 212133582227329997700000, m 198198547142505309300000, m 184267874457423385700000,
  m 170342045680977314600000, m 156421541765129000200000, m 142506843088653639600000, m 128598429440955755000000,
  m 114696780005412257300000, m 100802373343557622400000, m 86915687378664787940000, m 73037199379361828430000,
  m 59167385943921852100000, m 45306722983785032130000, m 31455685707619540380000, m 17614748605386956960000,
  m 3784385432144545134000, p 10034930807813205730000, p 23842727876773773400000, p 37638534319686838060000,
  p 51421879479903679490000, p 65192293514876515670000, p 78949307412116005420000, p 92692453004774682770000,
  p 106421262987386658700000, p 120135270931366521700000, p 133834011300796310500000, p 147517019467870462100000,
  p 161183831728295277200000, p 174833985316943810500000, p 188467018423166824300000, p 202082470206056295400000,
  p 215679880809961676300000, p 229258791379662518400000, p 242818744075493688800000, p 256359282088715724800000,
  p 269879949656549791200000, p 283380292077118148000000, p 296859855724840554100000, p 310318188064982172400000,
  p 323754837668786485100000, p 337169354228544456500000, p 350561288571999568300000, p 363930192677486426800000,
  p 377275619688517184200000, p 390597123928359722100000, p 403894260914851755300000]

/-- src/mid_qual_coeffs.h:11813-12303 -/
def row24 : List ℤ := [
  p 417166587374864143800000, p 430413661258716498700000, p 443635041754829144400000, p 456830289304024396400000,
  p 469998965613773681900000, p 483140633672688607000000, p 496254857764615530400000, p 509341203482883715000000,
  p 522399237744292132100000, p 535428528803368834100000, p 548428646266271835900000, p 561399161104641749100000,
  p 574339645669679605400000, p 587249673705878168200000, p 600128820364689602600000, p 612976662218425055200000,
  p 625792777273808591000000, p 638576744985425311600000, p 651328146269600227700000, p 664046563517445113900000,
  p 676731580608448549500000, p 689382782923995594000000, p 701999757360232930600000, p 714582092341626597100000,
  p 727129377833972195500000, p 739641205357389596600000, p 752117167999520391500000, p 764556860428382951100000,
  p 776959878905163626800000, p 789325821297222948000000, p 801654287090748478300000, p 813944877403351943700000,
  p 826197194996867371800000, p 838410844289771929300000, p 850585431369741415800000, p 862720564005956826700000,
  p 874815851661487459700000, p 886870905505774635000000, p 898885338426439525100000, p 910858765041757333600000,
  p 922790801712589266200000, p 934681066554301056100000, p 946529179448850951200000, p 958334762056561981400000,
  p 970097437827803152400000, p 981816832014881192200000, p 993492571683581016100000, p 1005124285724643416000000,
  p 1016711604865424461000000, p 1028254161681230834000000, p 1039751590606563005000000, p 1051203527946563323000000,
  p 1062609611888090709000000, p 1073969482510894443000000, p 1085282781798541400000000, p 1096549153649555583000000,
  p 1107768243888224147000000, p 1118939700275323190000000, p 1130063172519025702000000, p 1141138312285480986000000,
  p 1152164773209312341000000, p 1163142210904289080000000, p 1174070282973681094000000, p 1184948649020485696000000,
  p 1195776970658007487000000, p 1206554911519707026000000, p 1217282137269453919000000, p 1227958315611757780000000,
  p 1238583116301336532000000, p 1249156211153327643000000, p 1259677274052940993000000, p 1270145980965112610000000,
  p 1280562009944304124000000, p 1290925041143962428000000, p 1301234756825922967000000, p 1311490841369952450000000,
  p 1321692981282995144000000, p 1331840865208296218000000, p 1341934183934728481000000, p 1351972630405738141000000,
  p 1361955899728375984000000, p 1371883689182099367000000, p 1381755698227735531000000, p 1391571628516134187000000,
  p 1401331183896738133000000, p 1411034070426305442000000, p 1420679996377294035000000, p 1430268672246206565000000,
  p 1439799810762027463000000, p 1449273126894383510000000, p 1458688337861585799000000, p 1468045163138944264000000,
  p 1477343324466433858000000, p 1486582545856708973000000, p 1495762553603052596000000, p 1504883076286776204000000,
  p 1513943844785108420000000, p 1522944592278623098000000, p 1531885054258645944000000, p 1540764968534732689000000,
  p 1549584075241897466000000, p 1558342116847726260000000, p 1567038838159603769000000, p 1575673986331685037000000,
  p 1584247310871744361000000, p 1592758563648128062000000, p 1601207498896456806000000, p 1609593873226296485000000,
  p 1617917445627661257000000, p 1626177977477630873000000, p 1634375232546680023000000, p 1642508977004914026000000,
  p 1650578979428419862000000, p 1658585010805350502000000, p 1666526844541858744000000, p 1674404256468221656000000,
  p 1682217024844604629000000, p 1689964930366786612000000, p 1697647756171960813000000, p 1705265287844256105000000,
  p 1712817313420174955000000, p 1720303623394203296000000, p 1727724010723885248000000, p 1735078270835176692000000,
  p 1742366201627682399000000, p 1749587603479466850000000, p 1756742279252218077000000, p 1763830034296034414000000,
  p 1770850676454154438000000, p 1777804016067738952000000, p 1784689865980413140000000, p 1791508041542726106000000,
  p 1798258360616640994000000, p 1804940643579835795000000, p 1811554713329843703000000, p 1818100395288312727000000,
  p 1824577517404984929000000, p 1830985910161663085000000, p 1837325406576016456000000, p 1843595842205445531000000,
  p 1849797055150713453000000, p 1855928886059470765000000, p 1861991178129858426000000, p 1867983777113846073000000,
  p 1873906531320505874000000, p 1879759291619306771000000, p 1885541911443204240000000, p 1891254246791608182000000,
  p 1896896156233477456000000, p 1902467500909993956000000, p 1907968144537376112000000, p 1913397953409655319000000,
  p 1918756796401043831000000, p 1924044544968564604000000, p 1929261073154400980000000, p 1934406257588114960000000,
  p 1939479977488959379000000, p 1944482114667925310000000, p 1949412553529728540000000, p 1954271181074799298000000,
  p 1959057886901082249000000, p 1963772563205741072000000, p 1968415104786856110000000, p 1972985409044957211000000,
  p 1977483375984490435000000, p 1981908908215129078000000, p 1986261910953155373000000, p 1990542292022571148000000,
  p 1994749961856175959000000, p 1998884833496626136000000, p 2002946822597313423000000, p 2006935847423141697000000,
  p 2010851828851323211000000, p 2014694690371954516000000, p 2018464358088560735000000, p 2022160760718570878000000,
  p 2025783829593660011000000, p 2029333498659963066000000, p 2032809704478360634000000, p 2036212386224432562000000,
  p 2039541485688503488000000, p 2042796947275586465000000, p 2045978718005082419000000, p 2049086747510584124000000,
  p 2052120988039468543000000, p 2055081394452392025000000, p 2057967924222793739000000, p 2060780537436214793000000,
  p 2063519196789532790000000, p 2066183867590179902000000, p 2068774517755183565000000, p 2071291117810150368000000,
  p 2073733640888187919000000, p 2076102062728693142000000, p 2078396361676073355000000, p 2080616518678343740000000,
  p 2082762517285720923000000, p 2084834343649020084000000, p 2086831986518014777000000, p 2088755437239719556000000,
  p 2090604689756560275000000, p 2092379740604448108000000, p 2094080588910797198000000, p 2095707236392428674000000,
  p 2097259687353357580000000, p 2098737948682601918000000, p 2100142029851721943000000, p 2101471942912438388000000,
  p 2102727702494117112000000, p 2103909325801078117000000, p 2105016832609929271000000, p 2106050245266780346000000,
  p 2107009588684301792000000, p 2107894890338809536000000, p 2108706180267171538000000, p 2109443491063663165000000,
  p 2110106857876746251000000, p 2110696318405726277000000, p 2111211912897355356000000, p 2111653684142340229000000,
  p 2112021677471759631000000, p 2112315940753387109000000, p 2112536524387950091000000, p 2112683481305283138000000,
  p 2112756866960412670000000, p 2112756739329533281000000, p 2112683158905939371000000, p 2112536188695814544000000,
  p 2112315894213987605000000, p 2112022343479581874000000, p 2111655607011592509000000, p 2111215757824335456000000,
  p 2110702871422896840000000, p 2110117025798416250000000, p 2109458301423333161000000, p 2108726781246521038000000,
  p 2107922550688401050000000, p 2107045697635872780000000, p 2106096312437240586000000, p 2105074487897046730000000,
  p 2103980319270796519000000, p 2102813904259625329000000, p 2101575343004864153000000, p 2100264738082545293000000,
  p 2098882194497815688000000, p 2097427819679274340000000, p 2095901723473217373000000, p 2094304018137826701000000,
  p 2092634818337245090000000, p 2090894241135625182000000, p 2089082405991029776000000, p 2087199434749298279000000,
  p 2085245451637858950000000, p 2083220583259387613000000, p 2081124958585432554000000, p 2078958708949997340000000,
  p 2076721968042984437000000, p 2074414871903566826000000, p 2072037558913545751000000, p 2069590169790545397000000,
  p 2067072847581198029000000, p 2064485737654243262000000, p 2061828987693473808000000, p 2059102747690749746000000,
  p 2056307169938837581000000, p 2053442409024124841000000, p 2050508621819431814000000, p 2047505967476580865000000,
  p 2044434607418977451000000, p 2041294705334110917000000, p 2038086427165959006000000, p 2034809941107314744000000,
  p 2031465417592101617000000, p 2028053029287517437000000, p 2024572951086202506000000, p 2021025360098280699000000,
  p 2017410435643345479000000, p 2013728359242357869000000, p 2009979314609512333000000, p 2006163487644011152000000,
  p 2002281066421740356000000, p 1998332241186918327000000, p 1994317204343682391000000, p 1990236150447547911000000,
  p 1986089276196848722000000, p 1981876780424123366000000, p 1977598864087367746000000, p 1973255730261267837000000,
  p 1968847584128403331000000, p 1964374632970249633000000, p 1959837086158296073000000, p 1955235155144985013000000,
  p 1950569053454505016000000, p 1945838996673796744000000, p 1941045202443159425000000, p 1936187890447020827000000,
  p 1931267282404606394000000, p 1926283602060424073000000, p 1921237075174835225000000, p 1916127929514514945000000,
  p 1910956394842768620000000, p 1905722702909912669000000, p 1900427087443524315000000, p 1895069784138626087000000,
  p 1889651030647817621000000, p 1884171066571403578000000, p 1878630133447349148000000, p 1873028474741268322000000,
  p 1867366335836318251000000, p 1861643964023076709000000, p 1855861608489251706000000, p 1850019520309443806000000,
  p 1844117952434858130000000, p 1838157159682819904000000, p 1832137398726381081000000, p 1826058928083855188000000,
  p 1819922008108162004000000, p 1813726900976284128000000, p 1807473870678615556000000, p 1801163183008099283000000,
  p 1794795105549638978000000, p 1788369907669168715000000, p 1781887860502688430000000, p 1775349236945506035000000,
  p 1768754311641083585000000, p 1762103360970061674000000, p 1755396663039198845000000, p 1748634497670127760000000,
  p 1741817146388230202000000, p 1734944892411401053000000, p 1728018020638672414000000, p 1721036817638919685000000,
  p 1714001571639494140000000, p 1706912572514700027000000, p 1699770111774344091000000, p 1692574482552179713000000,
  p 1685325979594372303000000, p 1678024899247770613000000, p 1670671539448269783000000, p 1663266199709131010000000,
  p 1655809181109113874000000, p 1648300786280702769000000, p 1640741319398281942000000, p 1633131086166164821000000,
  p 1625470393806639595000000, p 1617759551048077692000000, p 1609998868112706358000000, p 1602188656704740767000000,
  p 1594329229998150965000000, p 1586420902624418846000000, p 1578463990660538847000000, p 1570458811616589744000000,
  p 1562405684423515476000000, p 1554304929420853923000000, p 1546156868344276611000000, p 1537961824313212756000000,
  p 1529720121818502589000000, p 1521432086709751004000000, p 1513098046182983266000000, p 1504718328767960713000000,
  p 1496293264315633718000000, p 1487823183985612432000000, p 1479308420233270849000000, p 1470749306797338764000000,
  p 1462146178687012774000000, p 1453499372169110440000000, p 1444809224755494621000000, p 1436076075190113139000000,
  p 1427300263436045383000000, p 1418482130662850537000000, p 1409622019233407750000000, p 1400720272691062052000000,
  p 1391777235746696545000000, p 1382793254265570404000000, p 1373768675254356158000000, p 1364703846848107143000000,
  p 1355599118297046504000000, p 1346454839953469375000000, p 1337271363258676080000000, p 1328049040729629721000000,
  p 1318788225945840588000000, p 1309489273536077738000000, p 1300152539165186838000000, p 1290778379520667951000000,
  p 1281367152299423126000000, p 1271919216194482066000000, p 1262434930881500134000000, p 1252914657005442609000000,
  p 1243358756167227321000000, p 1233767590910178407000000, p 1224141524706606277000000, p 1214480921944446120000000,
  p 1204786147913507188000000, p 1195057568792231434000000, p 1185295551634034513000000, p 1175500464353615784000000,
  p 1165672675713652542000000, p 1155812555310984464000000, p 1145920473563070627000000, p 1135996801694428952000000,
  p 1126041911722864674000000, p 1116056176445858394000000, p 1106039969426959781000000, p 1095993664981965944000000,
  p 1085917638165263517000000, p 1075812264756172056000000, p 1065677921245086410000000, p 1055514984819789972000000,
  p 1045323833351663196000000, p 1035104845381990771000000, p 1024858400108028325000000, p 1014584877369272518000000,
  p 1004284657633722905000000, p 993958121983915237500000, p 983605652103151451400000, p 973227630261741679400000,
  p 962824439302996468900000, p 952396462629446680600000, p 941944084189065881100000, p 931467688461125949300000,
  p 920967660442641839400000, p 910444385634318694100000, p 899898250026521183900000, p 889329640085662650800000,
  p 878738942740144631700000, p 868126545366310477100000, p 857492835774837963900000, p 846838202196554352600000,
  p 836163033268612484700000, p 825467718020643352100000, p 814752645860670359800000, p 804018206561265364900000,
  p 793264790245687694200000, p 782492787373803501600000, p 771702588728234543900000, p 760894585400496981100000,
  p 750069168776924745600000, p 739226730524840110000000, p 728367662578574418300000, p 717492357125648844500000,
  p 706601206592697979200000, p 695694603631623591900000, p 684772941105763681200000, p 673836612075825818400000,
  p 662886009786048499700000, p 651921527650394265100000, p 640943559238484126900000, p 629952498261793507500000,
  p 618948738559870945700000, p 607932674086180909800000, p 596904698894563197000000, p 585865207125230353700000,
  p 574814592990750133900000, p 563753250762543387800000, p 552681574756765797700000, p 541599959320590552100000,
  p 530508798818471938000000, p 519408487618184177800000, p 508299420077112451900000, p 497181990528553679000000,
  p 486056593267792703700000, p 474923622538420749500000, p 463783472518687427600000, p 452636537307603216600000,
  p 441483210911339447100000, p 430323887229475251700000, p 419158960041425630400000, p 407988822992608765700000,
  p 396813869580878424800000, p 385634493142970457200000, p 374451086840723776900000, p 363264043647563452100000,
  p 352073756334994364600000, p 340880617458881173400000, p 329685019345984150300000, p 318487354080537624200000,
  p 307288013490454755000000, p 296087389134186244900000, p 284885872287098801400000, p 273683853927866340100000,
  p 262481724725402258700000, p 251279875025160542200000, p 240078694835867595400000, p 228878573816248436600000,
  p 217679901261534695900000, p 206483066090237105400000, p 195288456830946502600000, p 184096461608910188200000,
  p 172907468132883941600000, p 161721863682003227300000, p 150540035092441572000000]

/-- src/mid_qual_coeffs.h:12304-12794 -/
def row25 : List ℤ := [
  p 139362368744336739700000, p 128189250548744148000000, p 117021065934373727400000, p 105858199834627864700000,
  p 94701036674501285930000, p 83549960357674320980000, p 72405354253365434210000, p 61267601183454507650000,
  p 50137083409637511780000, p 39014182620368767650000, p 27899279918076234720000, p 16792755806407803550000,
  p 5694990177268111283000, m 5393637701871444205000, m 16472749200603171760000, m 27541966338582445660000,
  m 38600911797851146490000, m 49649208935635603020000, m 60686481797110780770000, m 71712355127621164920000,
  m 82726454385508352610000, m 93728405754502745210000, m 104717836156105421700000, m 115694373262175407300000,
  m 126657645507236954200000, m 137607282100754145900000, m 148542913039605254100000, m 159464169120277762600000,
  m 170370681951030215700000, m 181262083964249927600000, m 192138008428508415900000, m 202998089460734688300000,
  m 213841962038192776000000, m 224669262010681800300000, m 235479626112454606900000, m 246272691974101949900000,
  m 257048098134627007500000, m 267805484053242179200000, m 278544490121126879000000, m 289264757673375985100000,
  m 299965929000667428000000, m 310647647360866839300000, m 321309556990974647000000, m 331951303118405464300000,
  m 342572531972715741700000, m 353172890797293418100000, m 363752027860497827000000, m 374309592467384855200000,
  m 384845234970997553200000, m 395358606783631917200000, m 405849360388289425100000, m 416317149349855919900000,
  m 426761628326227529900000, m 437182453079619059600000, m 447579280487598999700000, m 457951768554075531100000,
  m 468299576420454102900000, m 478622364376508511700000, m 488919793871334866300000, m 499191527524122540900000,
  m 509437229135115024300000, m 519656563696296413900000, m 529849197402033509800000, m 540014797659878914100000,
  m 550153033101116522800000, m 560263573591236003700000, m 570346090240590286400000, m 580400255414780701400000,
  m 590425742744970778600000, m 600422227138395418600000, m 610389384788573644000000, m 620326893185453587300000,
  m 630234431125866259600000, m 640111678723342351200000, m 649958317418337450400000, m 659774029988395354800000,
  m 669558500557806469400000, m 679311414607780116700000, m 689032458986211680500000, m 698721321917398900100000,
  m 708377693011940637000000, m 718001263276346591300000, m 727591725122592593100000, m 737148772377841125400000,
  m 746672100293882122700000, m 756161405556521619600000, m 765616386295113731500000, m 775036742091817789300000,
  m 784422173990917599200000, m 793772384507956604800000, m 803087077639036547500000, m 812365958869856676300000,
  m 821608735184676522100000, m 830815115075451385500000, m 839984808550682136500000, m 849117527144200613700000,
  m 858212983924123398900000, m 867270893501508738400000, m 876290972038959036100000, m 885272937259474449100000,
  m 894216508454723614900000, m 903121406493671190600000, m 911987353831136111000000, m 920814074515881146600000,
  m 929601294199151862400000, m 938348740142838709300000, m 947056141227586964700000, m 955723227961038728500000,
  m 964349732485828806300000, m 972935388587497541900000, m 981479931702552510800000, m 989983098926251574300000,
  m 998444629020346901400000, m 1006864262420928196000000, m 1015241741246011246000000, m 1023576809303170486000000,
  m 1031869212096995060000000, m 1040118696836679537000000, m 1048325012443358968000000, m 1056487909557386490000000,
  m 1064607140545726716000000, m 1072682459509081976000000, m 1080713622288984738000000, m 1088700386474978710000000,
  m 1096642511411556435000000, m 1104539758205041371000000, m 1112391889730558660000000, m 1120198670638793614000000,
  m 1127959867362625292000000, m 1135675248124014443000000, m 1143344582940337192000000, m 1150967643631035974000000,
  m 1158544203824180691000000, m 1166074038962614185000000, m 1173556926310480655000000, m 1180992644959401707000000,
  m 1188380975834583660000000, m 1195721701701070797000000, m 1203014607169705001000000, m 1210259478703049193000000,
  m 1217456104621409633000000, m 1224604275108597809000000, m 1231703782217643530000000, m 1238754419876599532000000,
  m 1245755983894079356000000, m 1252708271964856832000000, m 1259611083675259971000000, m 1266464220508691733000000,
  m 1273267485850917242000000, m 1280020684995276416000000, m 1286723625147976387000000, m 1293376115433169694000000,
  m 1299977966897961339000000, m 1306528992517467895000000, m 1313029007199697498000000, m 1319477827790317736000000,
  m 1325875273077590719000000, m 1332221163796855172000000, m 1338515322635261797000000, m 1344757574236391754000000,
  m 1350947745204537313000000, m 1357085664109286723000000, m 1363171161489781444000000, m 1369204069858923284000000,
  m 1375184223707665455000000, m 1381111459509077027000000, m 1386985615722325206000000, m 1392806532796741310000000,
  m 1398574053175672283000000, m 1404288021300243534000000, m 1409948283613201778000000, m 1415554688562544513000000,
  m 1421107086605121741000000, m 1426605330210123411000000, m 1432049273862616087000000, m 1437438774066871231000000,
  m 1442773689349650121000000, m 1448053880263489848000000, m 1453279209389847938000000, m 1458449541342132262000000,
  m 1463564742768800123000000, m 1468624682356246998000000, m 1473629230831620049000000, m 1478578260965763679000000,
  m 1483471647575747244000000, m 1488309267527605914000000, m 1493090999738954467000000, m 1497816725181360829000000,
  m 1502486326882822602000000, m 1507099689930188526000000, m 1511656701471278527000000, m 1516157250717215616000000,
  m 1520601228944444680000000, m 1524988529496873555000000, m 1529319047787796844000000, m 1533592681301766160000000,
  m 1537809329596500707000000, m 1541968894304579507000000, m 1546071279135102393000000, m 1550116389875363151000000,
  m 1554104134392332278000000, m 1558034422634074897000000, m 1561907166631258453000000, m 1565722280498305433000000,
  m 1569479680434705902000000, m 1573179284726227475000000, m 1576821013745869846000000, m 1580404789954990407000000,
  m 1583930537904190260000000, m 1587398184234161411000000, m 1590807657676523990000000, m 1594158889054514503000000,
  m 1597451811283603831000000, m 1600686359372108496000000, m 1603862470421668152000000, m 1606980083627626349000000,
  m 1610039140279440149000000, m 1613039583760916048000000, m 1615981359550417709000000, m 1618864415220959418000000,
  m 1621688700440316461000000, m 1624454166970960931000000, m 1627160768669963942000000, m 1629808461488854677000000,
  m 1632397203473363650000000, m 1634926954763088339000000, m 1637397677591147325000000, m 1639809336283681558000000,
  m 1642161897259317247000000, m 1644455329028619633000000, m 1646689602193324078000000, m 1648864689445633715000000,
  m 1650980565567420613000000, m 1653037207429252156000000, m 1655034593989486392000000, m 1656972706293211896000000,
  m 1658851527471104587000000, m 1660671042738278043000000, m 1662431239393022137000000, m 1664132106815427621000000,
  m 1665773636466051470000000, m 1667355821884381655000000, m 1668878658687322075000000, m 1670342144567574065000000,
  m 1671746279291941350000000, m 1673091064699571903000000, m 1674376504700115240000000, m 1675602605271842190000000,
  m 1676769374459654953000000, m 1677876822373049887000000, m 1678924961183999622000000, m 1679913805124774902000000,
  m 1680843370485673180000000, m 1681713675612718376000000, m 1682524740905244186000000, m 1683276588813427963000000,
  m 1683969243835777094000000, m 1684602732516499602000000, m 1685177083442842639000000, m 1685692327242351842000000,
  m 1686148496580050461000000, m 1686545626155542578000000, m 1686883752700112874000000, m 1687162914973646408000000,
  m 1687383153761579406000000, m 1687544511871735993000000, m 1687647034131086647000000, m 1687690767382484316000000,
  m 1687675760481275634000000, m 1687602064291896745000000, m 1687469731684360921000000, m 1687278817530703029000000,
  m 1687029378701349622000000, m 1686721474061425932000000, m 1686355164466978940000000, m 1685930512761157083000000,
  m 1685447583770317750000000, m 1684906444300063658000000, m 1684307163131196824000000, m 1683649811015649990000000,
  m 1682934460672305286000000, m 1682161186782782326000000, m 1681330065987139992000000, m 1680441176879531604000000,
  m 1679494600003761861000000, m 1678490417848838793000000, m 1677428714844378908000000, m 1676309577356031649000000,
  m 1675133093680792381000000, m 1673899354042236677000000, m 1672608450585758499000000, m 1671260477373677413000000,
  m 1669855530380292023000000, m 1668393707486929721000000, m 1666875108476854406000000, m 1665299835030154474000000,
  m 1663667990718580274000000, m 1661979681000284219000000, m 1660235013214516860000000, m 1658434096576280690000000,
  m 1656577042170873136000000, m 1654663962948419798000000, m 1652694973718329616000000, m 1650670191143674588000000,
  m 1648589733735517223000000, m 1646453721847202000000000, m 1644262277668552498000000, m 1642015525220020178000000,
  m 1639713590346779815000000, m 1637356600712788724000000, m 1634944685794713056000000, m 1632477976875888791000000,
  m 1629956607040169547000000, m 1627380711165702818000000, m 1624750425918715119000000, m 1622065889747170480000000,
  m 1619327242874395775000000, m 1616534627292671566000000, m 1613688186756760722000000, m 1610788066777304106000000,
  m 1607834414614307773000000, m 1604827379270428291000000, m 1601767111484291885000000, m 1598653763723746363000000,
  m 1595487490179007227000000, m 1592268446755808111000000, m 1588996791068482926000000, m 1585672682432970153000000,
  m 1582296281859765959000000, m 1578867752046892933000000, m 1575387257372691009000000, m 1571854963888673004000000,
  m 1568271039312245938000000, m 1564635653019464442000000, m 1560948976037609612000000, m 1557211181037838552000000,
  m 1553422442327742192000000, m 1549582935843788183000000, m 1545692839143811281000000, m 1541752331399407882000000,
  m 1537761593388259872000000, m 1533720807486427468000000, m 1529630157660655720000000, m 1525489829460456147000000,
  m 1521300010010389172000000, m 1517060888002091327000000, m 1512772653686288811000000, m 1508435498864910997000000,
  m 1504049616882948293000000, m 1499615202620405196000000, m 1495132452484180261000000, m 1490601564399833111000000,
  m 1486022737803387650000000, m 1481396173633066533000000, m 1476722074320930677000000, m 1472000643784531979000000,
  m 1467232087418538075000000, m 1462416612086208344000000, m 1457554426110944067000000, m 1452645739267712172000000,
  m 1447690762774505192000000, m 1442689709283650080000000, m 1437642792873161917000000, m 1432550229038060318000000,
  m 1427412234681540342000000, m 1422229028106228180000000, m 1417000829005333855000000, m 1411727858453740592000000,
  m 1406410338899087261000000, m 1401048494152860998000000, m 1395642549381268232000000, m 1390192731096331642000000,
  m 1384699267146750771000000, m 1379162386708698883000000, m 1373582320276800451000000, m 1367959299654865780000000,
  m 1362293557946590719000000, m 1356585329546417060000000, m 1350834850130108213000000, m 1345042356645433958000000,
  m 1339208087302825060000000, m 1333332281565880210000000, m 1327415180141942137000000, m 1321457024972643585000000,
  m 1315458059224303231000000, m 1309418527278399672000000, m 1303338674722008539000000, m 1297218748338105181000000,
  m 1291058996095935212000000, m 1284859667141304614000000, m 1278621011786890008000000, m 1272343281502401249000000,
  m 1266026728904824043000000, m 1259671607748635456000000, m 1253278172915856144000000, m 1246846680406198419000000,
  m 1240377387327208257000000, m 1233870551884205195000000, m 1227326433370356249000000, m 1220745292156716648000000,
  m 1214127389682039199000000, m 1207472988442884199000000, m 1200782351983445710000000, m 1194055744885322767000000,
  m 1187293432757577458000000, m 1180495682226381446000000, m 1173662760924865231000000, m 1166794937482936194000000,
  m 1159892481516928585000000, m 1152955663619357812000000, m 1145984755348658903000000, m 1138980029218765802000000,
  m 1131941758688785864000000, m 1124870218152663071000000, m 1117765682928690326000000, m 1110628429249121930000000,
  m 1103458734249698455000000, m 1096256875959229294000000, m 1089023133289001525000000, m 1081757786022297194000000,
  m 1074461114803908863000000, m 1067133401129470192000000, m 1059774927334928120000000, m 1052385976585980135000000,
  m 1044966832867350211000000, m 1037517780972201358000000, m 1030039106491528441000000, m 1022531095803295986000000,
  m 1014994036061961109000000, m 1007428215187642544000000, m 999833921855292507400000, m 992211445484157596900000,
  m 984561076226821846300000, m 976883104958488086200000, m 969177823266232849100000, m 961445523438070998600000,
  m 953686498452188192000000, m 945901041966136914100000, m 938089448305865760900000, m 930252012454904414100000,
  m 922389030043512946200000, m 914500797337684432300000, m 906587611228271920300000, m 898649769220118111400000,
  m 890687569421004738200000, m 882701310530769993300000, m 874691291830307564100000, m 866657813170667256300000,
  m 858601174961955040800000, m 850521678162395188200000, m 842419624267379718800000, m 834295315298345355400000,
  m 826149053791794241700000, m 817981142788330923600000, m 809791885821502222500000, m 801581586906803859000000,
  m 793350550530706809100000, m 785099081639377806600000, m 776827485627867029100000, m 768536068328911541400000,
  m 760225136001735487700000, m 751894995321229320100000, m 743545953366626390600000, m 735178317610498625200000,
  m 726792395907708611300000, m 718388496484189081700000, m 709966927925896737100000, m 701527999167757829500000,
  m 693072019482436152800000, m 684599298469281661500000, m 676110146043267922600000, m 667604872423757178900000,
  m 659083788123463278900000, m 650547203937283853100000, m 641995430931261725500000, m 633428780431353664000000,
  m 624847564012359049800000, m 616252093486866002300000, m 607642680894015683700000, m 599019638488440726300000,
  m 590383278729216453800000, m 581733914268628871300000, m 573071857941121116400000, m 564397422752275471300000,
  m 555710921867485835000000, m 547012668601124809300000, m 538302976405326759900000, m 529582158858778466600000,
  m 520850529655900954700000, m 512108402595546469700000, m 503356091570008896300000]

/-- src/mid_qual_coeffs.h:12795-13285 -/
def row26 : List ℤ := [
  m 494593910554020624000000, m 485822173593569489500000, m 477041194794906593200000, m 468251288313569782000000,
  m 459452768343217559500000, m 450645949104666826500000, m 441831144834931325800000, m 433008669776094095800000,
  m 424178838164380122300000, m 415341964219129080500000, m 406498362131899537100000, m 397648346055364009600000,
  m 388792230092420486100000, m 379930328285305464000000, m 371062954604526467900000, m 362190422938003277200000,
  m 353313047080217881200000, m 344431140721190474300000, m 335545017435652666800000, m 326654990672238044000000,
  m 317761373742497463000000, m 308864479810117638300000, m 299964621880174908900000, m 291062112788083857700000,
  m 282157265189076538300000, m 273250391547269759900000, m 264341804124870554100000, m 255431814971493259200000,
  m 246520735913379298400000, m 237608878542764544400000, m 228696554207051717800000, m 219784073998189623800000,
  m 210871748742076566600000, m 201959888987781807900000, m 193048804996987552000000, m 184138806733442450400000,
  m 175230203852245509800000, m 166323305689344862900000, m 157418421251073184200000, m 148515859203387145700000,
  m 139615927861641168700000, m 130718935179971403100000, m 121825188740707951600000, m 112934995744212358100000,
  m 104048662998223315400000, m 95166496907548369190000, m 86288803463756123420000, m 77415888234699703120000,
  m 68548056354256407090000, m 59685612512091890790000, m 50828860943255843730000, m 41978105417996235380000,
  m 33133649231597054300000, m 24295795194050733570000, m 15464845619969561490000, m 6641102318394703775000,
  p 2175133417239181911000, p 10983560819326567230000, p 19783879656093998960000, p 28575790241575894870000,
  p 37358993445753982070000, p 46133190704476611080000, p 54898084029350401440000, p 63653376017793177750000,
  p 72398769862867595270000, p 81133969363063435340000, p 89858678932368081710000, p 98572603609798771880000,
  p 107275449069306960100000, p 115966921629649869600000, p 124646728263831955900000, p 133314576609020992200000,
  p 141970174976114297400000, p 150613232359295801800000, p 159243458445750918400000, p 167860563625156213000000,
  p 176464258999139934600000, p 185054256390895446700000, p 193630268354573833800000, p 202192008184641378200000,
  p 210739189925393652300000, p 219271528380243118300000, p 227788739120975586600000, p 236290538497156536500000,
  p 244776643645297584800000, p 253246772498106221400000, p 261700643793580422000000, p 270137977084272424200000,
  p 278558492746327449500000, p 286961911988490388100000, p 295347956861255868700000, p 303716350265798723300000,
  p 312066815962867697500000, p 320399078581820975000000, p 328712863629446162000000, p 337007897498713593300000,
  p 345283907477803887800000, p 353540621758601804900000, p 361777769445542467000000, p 369995080564415081100000,
  p 378192286070737587600000, p 386369117858588624900000, p 394525308769080732600000, p 402660592598824880200000,
  p 410774704108531388800000, p 418867379031387832200000, p 426938354081395630200000, p 434987366961845148500000,
  p 443014156373571031000000, p 451018462023161995100000, p 459000024631310273100000, p 466958585940916077500000,
  p 474893888725275549800000, p 482805676796092527000000, p 490693695011662424500000, p 498557689284819818000000,
  p 506397406590850082800000, p 514212594975529892400000, p 522003003562950549200000, p 529768382563291389600000,
  p 537508483280730664900000, p 545223058121131450400000, p 552911860599656647900000, p 560574645348645606200000,
  p 568211168124967721900000, p 575821185817694905000000, p 583404456455739132300000, p 590960739215070089900000,
  p 598489794426347956400000, p 605991383582216939400000, p 613465269344584391900000, p 620911215552015613600000,
  p 628328987226897390900000, p 635718350582582564400000, p 643079073030630439300000, p 650410923187840980800000,
  p 657713670883238376800000, p 664987087165181019200000, p 672230944308235887700000, p 679445015820026045600000,
  p 686629076448187964700000, p 693782902187082954100000, p 700906270284584482400000, p 707998959248703520200000,
  p 715060748854338241100000, p 722091420149811218400000, p 729090755463370951900000, p 736058538409785443500000,
  p 742994553896728147800000, p 749898588131129011800000, p 756770428625609106400000, p 763609864204723462300000,
  p 770416685011127686800000, p 777190682511958168400000, p 783931649504733280700000, p 790639380123555777700000,
  p 797313669845221514300000, p 803954315494997918600000, p 810561115252724472000000, p 817133868658618937400000,
  p 823672376619051277600000, p 830176441412403334800000, p 836645866694734979000000, p 843080457505398649300000,
  p 849480020272739438400000, p 855844362819601863800000, p 862173294368779067800000, p 868466625548554500300000,
  p 874724168398033482700000, p 880945736372504262800000, p 887131144348659857000000, p 893280208629924736600000,
  p 899392746951580934600000, p 905468578485828777000000, p 911507523846961454200000, p 917509405096315487800000,
  p 923474045747175336700000, p 929401270769777206200000, p 935290906596094066500000, p 941142781124566243100000,
  p 946956723725002227700000, p 952732565243053831400000, p 958470138004927801400000, p 964169275822041168700000,
  p 969829813995336915100000, p 975451589319895301200000, p 981034440089265796800000, p 986578206099781663100000,
  p 992082728654903591900000, p 997547850569419037800000, p 1002973416173564680000000, p 1008359271317221416000000,
  p 1013705263373931549000000, p 1019011241244850707000000, p 1024277055362774131000000, p 1029502557695969982000000,
  p 1034687601752027394000000, p 1039832042581570297000000, p 1044935736782055379000000, p 1049998542501388334000000,
  p 1055020319441472886000000, p 1060000928861834849000000, p 1064940233583064246000000, p 1069838097990195641000000,
  p 1074694388036153076000000, p 1079508971245021331000000, p 1084281716715261232000000, p 1089012495122965510000000,
  p 1093701178724963306000000, p 1098347641361844445000000, p 1102951758461111426000000, p 1107513407039978186000000,
  p 1112032465708343411000000, p 1116508814671708129000000, p 1120942335733794487000000, p 1125332912299417589000000,
  p 1129680429377082811000000, p 1133984773581581378000000, p 1138245833136584647000000, p 1142463497877127141000000,
  p 1146637659251979876000000, p 1150768210326108239000000, p 1154855045782940360000000, p 1158898061926596666000000,
  p 1162897156684146970000000, p 1166852229607708187000000, p 1170763181876549423000000, p 1174629916299059582000000,
  p 1178452337314769838000000, p 1182230350996239278000000, p 1185963865050850777000000, p 1189652788822667369000000,
  p 1193297033294118611000000, p 1196896511087642938000000, p 1200451136467348221000000, p 1203960825340541800000000,
  p 1207425495259162058000000, p 1210845065421330352000000, p 1214219456672589390000000, p 1217548591507281678000000,
  p 1220832394069843200000000, p 1224070790155891300000000, p 1227263707213453302000000, p 1230411074344001706000000,
  p 1233512822303459242000000, p 1236568883503198074000000, p 1239579192010915615000000, p 1242543683551446598000000,
  p 1245462295507600943000000, p 1248334966920861553000000, p 1251161638492013150000000, p 1253942252581809061000000,
  p 1256676753211479055000000, p 1259365086063228079000000, p 1262007198480642831000000, p 1264603039469102677000000,
  p 1267152559696074115000000, p 1269655711491328486000000, p 1272112448847195461000000, p 1274522727418666472000000,
  p 1276886504523458031000000, p 1279203739142069189000000, p 1281474391917721261000000, p 1283698425156232052000000,
  p 1285875802825937799000000, p 1288006490557389375000000, p 1290090455643119619000000, p 1292127667037360579000000,
  p 1294118095355558003000000, p 1296061712873987967000000, p 1297958493529267465000000, p 1299808412917737282000000,
  p 1301611448294881295000000, p 1303367578574648198000000, p 1305076784328686266000000, p 1306739047785595480000000,
  p 1308354352830043248000000, p 1309922685001867551000000, p 1311444031495120682000000, p 1312918381157037731000000,
  p 1314345724486955204000000, p 1315726053635197330000000, p 1317059362401852649000000, p 1318345646235552547000000,
  p 1319584902232137473000000, p 1320777129133317946000000, p 1321922327325251653000000, p 1323020498837053317000000,
  p 1324071647339277466000000, p 1325075778142325092000000, p 1326032898194792189000000, p 1326943016081785125000000,
  p 1327806142023155341000000, p 1328622287871674204000000, p 1329391467111203312000000, p 1330113694854723411000000,
  p 1330788987842383914000000, p 1331417364439478699000000, p 1331998844634317818000000, p 1332533450036127182000000,
  p 1333021203872819874000000, p 1333462130988752716000000, p 1333856257842414537000000, p 1334203612504068683000000,
  p 1334504224653327003000000, p 1334758125576679172000000, p 1334965348164972570000000, p 1335125926910825812000000,
  p 1335239897905995433000000, p 1335307298838693361000000, p 1335328168990832171000000, p 1335302549235241722000000,
  p 1335230482032818576000000, p 1335112011429622500000000, p 1334947183053914214000000, p 1334736044113169927000000,
  p 1334478643390998084000000, p 1334175031244028142000000, p 1333825259598761396000000, p 1333429381948338533000000,
  p 1332987453349282047000000, p 1332499530418163177000000, p 1331965671328227008000000, p 1331385935805979182000000,
  p 1330760385127708213000000, p 1330089082115939710000000, p 1329372091135884318000000, p 1328609478091786556000000,
  p 1327801310423250020000000, p 1326947657101516407000000, p 1326048588625663429000000, p 1325104177018795147000000,
  p 1324114495824145997000000, p 1323079620101151425000000, p 1321999626421471253000000, p 1320874592864949284000000,
  p 1319704599015543650000000, p 1318489725957187322000000, p 1317230056269622388000000, p 1315925674024157575000000,
  p 1314576664779401691000000, p 1313183115576943951000000, p 1311745114936967074000000, p 1310262752853837403000000,
  p 1308736120791639942000000, p 1307165311679652680000000, p 1305550419907783831000000, p 1303891541321978292000000,
  p 1302188773219540175000000, p 1300442214344430187000000, p 1298651964882541112000000, p 1296818126456863139000000,
  p 1294940802122661761000000, p 1293020096362596481000000, p 1291056115081764709000000, p 1289048965602741965000000,
  p 1286998756660528206000000, p 1284905598397524055000000, p 1282769602358364370000000, p 1280590881484785191000000,
  p 1278369550110422829000000, p 1276105723955552659000000, p 1273799520121794314000000, p 1271451057086795625000000,
  p 1269060454698826140000000, p 1266627834171363482000000, p 1264153318077657811000000, p 1261637030345153605000000,
  p 1259079096250011187000000, p 1256479642411477762000000, p 1253838796786223113000000, p 1251156688662736442000000,
  p 1248433448655534130000000, p 1245669208699429296000000, p 1242864102043738901000000, p 1240018263246424075000000,
  p 1237131828168194000000000, p 1234204933966629326000000, p 1231237719090155303000000, p 1228230323272079538000000,
  p 1225182887524551255000000, p 1222095554132434682000000, p 1218968466647229716000000, p 1215801769880885683000000,
  p 1212595609899620947000000, p 1209350134017658394000000, p 1206065490790956575000000, p 1202741830010919380000000,
  p 1199379302698000980000000, p 1195978061095338742000000, p 1192538258662336707000000, p 1189060050068172945000000,
  p 1185543591185306495000000, p 1181989039082974096000000, p 1178396552020560080000000, p 1174766289441008535000000,
  p 1171098411964224427000000, p 1167393081380289953000000, p 1163650460642861543000000, p 1159870713862364965000000,
  p 1156054006299164424000000, p 1152200504356851347000000, p 1148310375575298985000000, p 1144383788623803532000000,
  p 1140420913294190120000000, p 1136421920493817543000000, p 1132386982238607056000000, p 1128316271646049272000000,
  p 1124209962928106104000000, p 1120068231384145890000000, p 1115891253393859646000000, p 1111679206410058282000000,
  p 1107432268951529224000000, p 1103150620595808474000000, p 1098834441971982805000000, p 1094483914753358392000000,
  p 1090099221650178869000000, p 1085680546402347521000000, p 1081228073771984015000000, p 1076741989536078277000000,
  p 1072222480479102314000000, p 1067669734385496465000000, p 1063083940032221808000000, p 1058465287181312338000000,
  p 1053813966572214860000000, p 1049130169914367847000000, p 1044414089879560628000000, p 1039665920094249001000000,
  p 1034885855132055155000000, p 1030074090505983531000000, p 1025230822660772208000000, p 1020356248965206781000000,
  p 1015450567704311068000000, p 1010513978071613493000000, p 1005546680161382034000000, p 1000548874960741855000000,
  p 995520764341866881000000, p 990462551054141883800000, p 985374438716210727900000, p 980256631808105061800000,
  p 975109335663281937000000, p 969932756460715312300000, p 964727101216837721500000, p 959492577777574314100000,
  p 954229394810355538600000, p 948937761795987468900000, p 943617889020628274700000, p 938269987567729672100000,
  p 932894269309852172500000, p 927490946900570863700000, p 922060233766372407300000, p 916602344098352110600000,
  p 911117492844176302000000, p 905605895699805423000000, p 900067769101181450500000, p 894503330216138230700000,
  p 888912796936058326200000, p 883296387867510998500000, p 877654322324117656100000, p 871986820318086837400000,
  p 866294102551947277700000, p 860576390410208226000000, p 854833905950934001500000, p 849066871897387505400000,
  p 843275511629669070500000, p 837460049176225640600000, p 831620709205455901000000, p 825757717017301965900000,
  p 819871298534712695200000, p 813961680295215974900000, p 808029089442410114500000, p 802073753717506311700000,
  p 796095901450740036300000, p 790095761552875655600000, p 784073563506708999700000, p 778029537358430499000000,
  p 771963913709098259100000, p 765876923706103004400000, p 759768799034496846200000, p 753639771908429928500000,
  p 747490075062599542200000, p 741319941743472533200000, p 735129605700832536300000, p 728919301179057677900000,
  p 722689262908380821700000, p 716439726096415770200000, p 710170926419330340500000, p 703883100013222729600000,
  p 697576483465480422200000, p 691251313805997177900000, p 684907828498513724900000]

/-- src/mid_qual_coeffs.h:13286-13776 -/
def row27 : List ℤ := [
  p 678546265431956936400000, p 672166862911621255400000, p 665769859650507871000000, p 659355494760623345000000,
  p 652924007744165265700000, p 646475638484830849100000, p 640010627239043900500000, p 633529214627263415900000,
  p 627031641625129770700000, p 620518149554757599900000, p 613988980076004826700000, p 607444375177616465800000,
  p 600884577168493434100000, p 594309828668963748200000, p 587720372601910497600000, p 581116452184028946900000,
  p 574498310917113236800000, p 567866192579086779100000, p 561220341215426001000000, p 554561001130265984200000,
  p 547888416877523234300000, p 541202833252300234000000, p 534504495281925055000000, p 527793648217216374000000,
  p 521070537523739599700000, p 514335408872919558700000, p 507588508133294236600000, p 500830081361772422700000,
  p 494060374794746612300000, p 487279634839357211500000, p 480488108064748987600000, p 473686041193191725200000,
  p 466873681091350717800000, p 460051274761553519500000, p 453219069332918948500000, p 446377312052646498300000,
  p 439526250277224488400000, p 432666131463717957500000, p 425797203160924392700000, p 418919713000659075200000,
  p 412033908689059182500000, p 405140037997735831200000, p 398238348755091515200000, p 391329088837629195000000,
  p 384412506161131391800000, p 377488848671986624000000, p 370558364338544900800000, p 363621301142226397000000,
  p 356677907069037516800000, p 349728430100784790500000, p 342773118206286765300000, p 335812219332918692100000,
  p 328845981397760665000000, p 321874652279008517900000, p 314898479807375016900000, p 307917711757350702700000,
  p 300932595838628610800000, p 293943379687527852200000, p 286950310858293542200000, p 279953636814543745900000,
  p 272953604920735126400000, p 265950462433485641800000, p 258944456493081284100000, p 251935834114883885800000,
  p 244924842180864314200000, p 237911727430971544200000, p 230896736454669321900000, p 223880115682483264100000,
  p 216862111377412404500000, p 209842969626506244100000, p 202822936332450664800000, p 195802257205023413100000,
  p 188781177752710371800000, p 181759943274355359400000, p 174738798850572571900000, p 167717989335577607000000,
  p 160697759348714695300000, p 153678353265999516600000, p 146660015211998336300000, p 139642989051318562800000,
  p 132627518380370491800000, p 125613846519126773600000, p 118602216502748983800000, p 111592871073383181300000,
  p 104586052671973070300000, p 97582003429939073880000, p 90580965161028305210000, p 83583179353182915490000,
  p 76588887160274963360000, p 69598329394012818580000, p 62611746515866471530000, p 55629378628861687980000,
  p 48651465469561392230000, p 41678246399967449310000, p 34709960399542732710000, p 27746846057086607990000,
  p 20789141562782563930000, p 13837084700266562140000, p 6890912838566480117000, m 49137075785927725030,
  m 6982828526621039276000, m 13909925436125906320000, m 20830192172665396930000, m 27743393558563761330000,
  m 34649294878114330680000, m 41547661885163905990000, m 48438260810992383780000, m 55320858372166740340000,
  m 62195221778055443830000, m 69061118738718139290000, m 75918317472520264800000, m 82766586713740579610000,
  m 89605695720302338790000, m 96435414281330372090000, m 103255512724681206900000, m 110065761924598836500000,
  m 116865933309194414300000, m 123655798867896850000000, m 130435131159030909000000, m 137203703317199260100000,
  m 143961289060738167800000, m 150707662699046685800000, m 157442599140053069100000, m 164165873897504841200000,
  m 170877263098233111300000, m 177576543489531952200000, m 184263492446367911500000, m 190937887978555667600000,
  m 197599508738053897800000, m 204248134026085748400000, m 210883543800212739100000, m 217505518681623285100000,
  m 224113839962002960800000, m 230708289610680070100000, m 237288650281743107800000, m 243854705320819870000000,
  m 250406238772217331100000, m 256943035385777949300000, m 263464880623734941100000, m 269971560667670311600000,
  m 276462862425301471700000, m 282938573537237065200000, m 289398482383840618400000, m 295842378091922344800000,
  m 302270050541398151800000, m 308681290372056201100000, m 315075888990133082400000, m 321453638574957425300000,
  m 327814332085456033300000, m 334157763266792941900000, m 340483726656827740200000, m 346792017592541799200000,
  m 353082432216574710300000, m 359354767483578252000000, m 365608821166544389900000, m 371844391863233566000000,
  m 378061279002430924500000, m 384259282850166813000000, m 390438204516038982900000, m 396597845959364568800000,
  m 402738009995278942700000, m 408858500301030050000000, m 414959121421871481500000, m 421039678777200901400000,
  m 427099978666673862700000, m 433139828275986562800000, m 439159035682982394700000, m 445157409863504796300000,
  m 451134760697219524000000, m 457090898973536890200000, m 463025636397364594800000, m 468938785594821686600000,
  m 474830160119048641000000, m 480699574455844397500000, m 486546844029269083300000, m 492371785207339164200000,
  m 498174215307539366500000, m 503953952602377531700000, m 509710816324821240800000, m 515444626673840960000000,
  m 521155204819773155100000, m 526842372909659879300000, m 532505954072668807700000, m 538145772425340559300000,
  m 543761653076812816700000, m 549353422134117195700000, m 554920906707313918600000, m 560463934914588214600000,
  m 565982335887433131800000, m 571475939775663429800000, m 576944577752392827000000, m 582388082019088225400000,
  m 587806285810454475600000, m 593199023399357955300000, m 598566130101620369300000, m 603907442280919235000000,
  m 609222797353513268900000, m 614512033792935031100000, m 619774991134763473700000, m 625011509981222260400000,
  m 630221432005756074200000, m 635404599957660378600000, m 640560857666580313500000, m 645690050046925892600000,
  m 650792023102454166500000, m 655866623930496201900000, m 660913700726393420000000, m 665933102787873978600000,
  m 670924680519164283500000, m 675888285435346288600000, m 680823770166493185500000, m 685730988461766494500000,
  m 690609795193590568300000, m 695460046361663381700000, m 700281599096935878000000, m 705074311665640973300000,
  m 709838043473191480100000, m 714572655068009617200000, m 719278008145444449800000, m 723953965551522578100000,
  m 728600391286658710700000, m 733217150509430965100000, m 737804109540198091600000, m 742361135864729815600000,
  m 746888098137733530600000, m 751384866186454933300000, m 755851311014116679700000, m 760287304803333079500000,
  m 764692720919558943100000, m 769067433914414938700000, m 773411319528948871600000, m 777724254696967980100000,
  m 782006117548214563700000, m 786256787411493906200000, m 790476144817920376800000, m 794664071503844017400000,
  m 798820450413965889000000, m 802945165704379150300000, m 807038102745375189800000, m 811099148124458358400000,
  m 815128189649162943400000, m 819125116349815824200000, m 823089818482372419800000, m 827022187531094884900000,
  m 830922116211191600300000, m 834789498471508596500000, m 838624229497066152700000, m 842426205711574904900000,
  m 846195324779975589800000, m 849931485610841202700000, m 853634588358795853000000, m 857304534426817067000000,
  m 860941226468601734200000, m 864544568390802599700000, m 868114465355193957700000, m 871650823780908468900000,
  m 875153551346519479800000, m 878622556992090489500000, m 882057750921257251700000, m 885459044603170556700000,
  m 888826350774409414500000, m 892159583440955603600000, m 895458657879926876900000, m 898723490641422815800000,
  m 901953999550320268700000, m 905150103707872441400000, m 908311723493452510300000, m 911438780566130378300000,
  m 914531197866211590900000, m 917588899616807261000000, m 920611811325271721400000, m 923599859784606999600000,
  m 926552973074890170700000, m 929471080564571363500000, m 932354112911748891300000, m 935202002065437009200000,
  m 938014681266752031400000, m 940792085050013013000000, m 943534149243908026500000, m 946240810972499108900000,
  m 948912008656251277700000, m 951547682012957789100000, m 954147772058701608600000, m 956712221108691981400000,
  m 959240972778068476700000, m 961733971982718150800000, m 964191164939972905800000, m 966612499169282888100000,
  m 968997923492870912200000, m 971347388036328230300000, m 973660844229101555600000, m 975938244805074845200000,
  m 978179543802935869100000, m 980384696566605770900000, m 982553659745649980400000, m 984686391295484103600000,
  m 986782850477733878100000, m 988842997860406910200000, m 990866795318051185900000, m 992854206031924422700000,
  m 994805194490046545300000, m 996719726487225706300000, m 998597769125070646200000, m 1000439290811920871000000,
  m 1002244261262728257000000, m 1004012651498933885000000, m 1005744433848253586000000, m 1007439581944457197000000,
  m 1009098070727040049000000, m 1010719876440943675000000, m 1012304976636147500000000, m 1013853350167237110000000,
  m 1015364977192958216000000, m 1016839839175703603000000, m 1018277918880916393000000, m 1019679200376535791000000,
  m 1021043669032315349000000, m 1022371311519126684000000, m 1023662115808248027000000, m 1024916071170539796000000,
  m 1026133168175637732000000, m 1027313398691084238000000, m 1028456755881388806000000, m 1029563234207076959000000,
  m 1030632829423679120000000, m 1031665538580666579000000, m 1032661360020375963000000, m 1033620293376845672000000,
  m 1034542339574627372000000, m 1035427500827582102000000, m 1036275780637578364000000, m 1037087183793175462000000,
  m 1037861716368275629000000, m 1038599385720700681000000, m 1039300200490756105000000, m 1039964170599718156000000,
  m 1040591307248313162000000, m 1041181622915129598000000, m 1041735131354980725000000, m 1042251847597259638000000,
  m 1042731787944210830000000, m 1043174969969173568000000, m 1043581412514797734000000, m 1043951135691195686000000,
  m 1044284160874050767000000, m 1044580510702703248000000, m 1044840209078177519000000, m 1045063281161165902000000,
  m 1045249753369979946000000, m 1045399653378462253000000, m 1045513010113816770000000, m 1045589853754478769000000,
  m 1045630215727840623000000, m 1045634128708029841000000, m 1045601626613570445000000, m 1045532744605060394000000,
  m 1045427519082770939000000, m 1045285987684217797000000, m 1045108189281689385000000, m 1044894163979737329000000,
  m 1044643953112622510000000, m 1044357599241716459000000, m 1044035146152874540000000, m 1043676638853751693000000,
  m 1043282123571096258000000, m 1042851647747981142000000, m 1042385260041021541000000, m 1041883010317524788000000,
  m 1041344949652629141000000, m 1040771130326378609000000, m 1040161605820758743000000, m 1039516430816723102000000,
  m 1038835661191144693000000, m 1038119354013733366000000, m 1037367567543953217000000, m 1036580361227832205000000,
  m 1035757795694809301000000, m 1034899932754482091000000, m 1034006835393333360000000, m 1033078567771453758000000,
  m 1032115195219177961000000, m 1031116784233694367000000, m 1030083402475655014000000, m 1029015118765692688000000,
  m 1027912003080923287000000, m 1026774126551441464000000, m 1025601561456726063000000, m 1024394381222034495000000,
  m 1023152660414776947000000, m 1021876474740819911000000, m 1020565901040774949000000, m 1019221017286238689000000,
  m 1017841902576026520000000, m 1016428637132312180000000, m 1014981302296791635000000, m 1013499980526782118000000,
  m 1011984755391283873000000, m 1010435711567006338000000, m 1008852934834389556000000, m 1007236512073532127000000,
  m 1005586531260141935000000, m 1003903081461424412000000, m 1002186252831929617000000, m 1000436136609384559000000,
  m 998652825110491046100000, m 996836411726645691900000, m 994986990919710006000000, m 993104658217668166000000,
  m 991189510210265922000000, m 989241644544682679000000, m 987261159921066751600000, m 985248156088118975600000,
  m 983202733838614735500000, m 981124995004876987400000, m 979015042454246895600000, m 976872980084513486600000,
  m 974698912819294081100000, m 972492946603398787100000, m 970255188398175911700000, m 967985746176785273300000,
  m 965684728919484307300000, m 963352246608854432700000, m 960988410225029478100000, m 958593331740836395600000,
  m 956167124116957659900000, m 953709901297057670600000, m 951221778202845512500000, m 948702870729137932500000,
  m 946153295738902258900000, m 943573171058219306600000, m 940962615471271977700000, m 938321748715299601400000,
  m 935650691475448299300000, m 932949565379718494300000, m 930218492993797061200000, m 927457597815834074700000,
  m 924667004271320820700000, m 921846837707790758800000, m 918997224389584668900000, m 916118291492585331400000,
  m 913210167098863412000000, m 910272980191359341400000, m 907306860648536247000000, m 904311939238938559400000,
  m 901288347615806888200000, m 898236218311637712500000, m 895155684732686801100000, m 892046881153483149600000,
  m 888909942711301067300000, m 885745005400648201400000, m 882552206067636901800000, m 879331682404412939700000,
  m 876083572943563192500000, m 872808017052412849500000, m 869505154927391462800000, m 866175127588346850000000,
  m 862818076872798930100000, m 859434145430208523400000, m 856023476716248534600000, m 852586214986935601200000,
  m 849122505292916238600000, m 845632493473587754800000, m 842116326151204526400000, m 838574150725096383000000,
  m 835006115365684461200000, m 831412369008600166600000, m 827793061348756757100000, m 824148342834348608300000,
  m 820478364660886367300000, m 816783278765227877300000, m 813063237819488648200000, m 809318395225033424500000,
  m 805548905106437396200000, m 801754922305349072500000, m 797936602374409967500000, m 794094101571159866100000,
  m 790227576851846788600000, m 786337185865295068400000, m 782423086946713907200000, m 778485439111529131800000,
  m 774524402049123878400000, m 770540136116620367500000, m 766532802332665691100000, m 762502562371108094800000,
  m 758449578554731157000000, m 754374013848984280800000, m 750276031855613115400000, m 746155796806340825300000,
  m 742013473556564647500000, m 737849227578878975900000, m 733663224956814419500000]

/-- src/mid_qual_coeffs.h:13777-14267 -/
def row28 : List ℤ := [
  m 729455632378381811600000, m 725226617129610365500000, m 720976347088226016000000, m 716704990717119535700000,
  m 712412717057913204600000, m 708099695724525744400000, m 703766096896622436700000, m 699412091313150242400000,
  m 695037850265843430200000, m 690643545592647132100000, m 686229349671199878400000, m 681795435412317109300000,
  m 677341976253348593100000, m 672869146151691753300000, m 668377119578088263500000, m 663866071510138783100000,
  m 659336177425649968200000, m 654787613295925211500000, m 650220555579278727800000, m 645635181214263519100000,
  m 641031667613069775800000, m 636410192654873079800000, m 631770934679099015000000, m 627114072478772021000000,
  m 622439785293841694700000, m 617748252804418127900000, m 613039655124085741000000, m 608314172793206274300000,
  m 603571986772129189100000, m 598813278434482299100000, m 594038229560408192200000, m 589247022329847814500000,
  m 584439839315704793100000, m 579616863477110696800000, m 574778278152672083400000, m 569924267053621268900000,
  m 565055014257049713500000, m 560170704199150731700000, m 555271521668334157700000, m 550357651798454744000000,
  m 545429280062022887500000, m 540486592263317452100000, m 535529774531584351300000, m 530559013314254104800000,
  m 525574495369973671500000, m 520576407761913018500000, m 515564937850846935500000, m 510540273288235006400000,
  m 505502602009517444700000, m 500452112227128495000000, m 495388992423679078200000, m 490313431345127076300000,
  m 485225617993838168100000, m 480125741621753457700000, m 475013991723549676800000, m 469890558029691562900000,
  m 464755630499596344200000, m 459609399314782611900000, m 454452054871928498800000, m 449283787776031718900000,
  m 444104788833506235300000, m 438915249045352545400000, m 433715359600192278600000, m 428505311867435174300000,
  m 423285297390422099600000, m 418055507879477048300000, m 412816135205058398100000, m 407567371390916998800000,
  m 402309408607142750000000, m 397042439163322038700000, m 391766655501712577800000, m 386482250190234690200000,
  m 381189415915752832700000, m 375888345477137569500000, m 370579231778321799600000, m 365262267821595671100000,
  m 359937646700608598000000, m 354605561593561934500000, m 349266205756390861100000, m 343919772515835628000000,
  m 338566455262635584400000, m 333206447444720117700000, m 327839942560299033400000, m 322467134151060866400000,
  m 317088215795385559200000, m 311703381101445303400000, m 306312823700433426700000, m 300916737239728118100000,
  m 295515315376137577900000, m 290108751769021404900000, m 284697240073533415300000, m 279280973933874164300000,
  m 273860146976432933700000, m 268434952803049903600000, m 263005584984291713400000, m 257572237052609820900000,
  m 252135102495632977200000, m 246694374749473037100000, m 241250247191846699500000, m 235802913135517628600000,
  m 230352565821500404600000, m 224899398412274094800000, m 219443603985236898500000, m 213985375525936090300000,
  m 208524905921312302300000, m 203062387953193633200000, m 197598014291492551000000, m 192131977487606056000000,
  m 186664469967813838400000, m 181195684026571891300000, m 175725811819929235400000, m 170255045358962288800000,
  m 164783576503096831700000, m 159311596953564223700000, m 153839298246866509600000, m 148366871748136766500000,
  m 142894508644642536300000, m 137422399939222500100000, m 131950736443816365700000, m 126479708772873271200000,
  m 121009507336894845700000, m 115540322335989695400000, m 110072343753322979200000, m 104605761348699314300000,
  m 99140764652158895390000, m 93677542957469408270000, m 88216285315750501230000, m 82757180529127177140000,
  m 77300417144199359120000, m 71846183445842666480000, m 66394667450774786190000, m 60946056901137761660000,
  m 55500539258344088360000, m 50058301696624538580000, m 44619531096789574060000, m 39184414039992527180000,
  m 33753136801392127560000, m 28325885343949496840000, m 22902845312242158630000, m 17484202026177065220000,
  m 12070140474838946250000, m 6660845310356076629000, m 1256500841665996954000, p 4142708971569870839000,
  p 9536600525112154351000, p 14924990576192745680000, p 20307696249675999870000, p 25684535044083545360000,
  p 31055324837600997820000, p 36419883894181688010000, p 41778030869514889850000, p 47129584816974044870000,
  p 52474365193662683520000, p 57812191866323022080000, p 63142885117211918280000, p 68466265650151403850000,
  p 73782154596246793880000, p 79090373519831401180000, p 84390744424389410830000, p 89683089758212637220000,
  p 94967232420346044810000, p 100242995766318447800000, p 105510203613864197400000, p 110768680248739289500000,
  p 116018250430399371900000, p 121258739397656949100000, p 126489972874429835200000, p 131711777075353377800000,
  p 136923978711368842300000, p 142126404995405986800000, p 147318883647925056100000, p 152501242902437918800000,
  p 157673311511119409800000, p 162834918750266938800000, p 167985894425815826600000, p 173126068878751588400000,
  p 178255272990625784900000, p 183373338188934180700000, p 188480096452470886000000, p 193575380316770239400000,
  p 198659022879411754100000, p 203730857805300156000000, p 208790719332032400800000, p 213838442275128001000000,
  p 218873862033220213200000, p 223896814593410614300000, p 228907136536296844800000, p 233904665041213642800000,
  p 238889237891444793100000, p 243860693479175003800000, p 248818870810713348600000, p 253763609511503934100000,
  p 258694749831120927600000, p 263612132648350457000000, p 268515599476133271000000, p 273404992466481705200000,
  p 278280154415475522100000, p 283140928768126564600000, p 287987159623213592200000, p 292818691738193934200000,
  p 297635370533974412700000, p 302437042099721025800000, p 307223553197570945200000, p 311994751267435964700000,
  p 316750484431666630100000, p 321490601499693925100000, p 326214951972744846400000, p 330923386048424079300000,
  p 335615754625265207300000, p 340291909307362098500000, p 344951702408862327500000, p 349594986958422595600000,
  p 354221616703805368600000, p 358831446116169336000000, p 363424330394554646600000, p 368000125470328896900000,
  p 372558688011394322800000, p 377099875426632053200000, p 381623545870150393400000, p 386129558245511424500000,
  p 390617772210030244700000, p 395088048178942642700000, p 399540247329538292300000, p 403974231605369680600000,
  p 408389863720326647400000, p 412787007162677694700000, p 417165526199185889600000, p 421525285879087885800000,
  p 425866152038043618100000, p 430187991302159668400000, p 434490671091857427700000, p 438774059625789125900000,
  p 443038025924650592000000, p 447282439815070720100000, p 451507171933370290500000, p 455712093729293684800000,
  p 459897077469798118900000, p 464061996242720901600000, p 468206723960412163400000, p 472331135363427486100000,
  p 476435106024093518100000, p 480518512350035426900000, p 484581231587825781000000, p 488623141826346010300000,
  p 492644122000319658600000, p 496644051893804544700000, p 500622812143466130800000, p 504580284242051794800000,
  p 508516350541688430900000, p 512430894257155005200000, p 516323799469204226600000, p 520194951127773952900000,
  p 524044235055152736300000, p 527871537949209878300000, p 531676747386494188100000, p 535459751825306936800000,
  p 539220440608823817400000, p 542958703968088318700000, p 546674433025029168400000, p 550367519795378679900000,
  p 554037857191664825400000, p 557685339026072336500000, p 561309860013277459700000, p 564911315773326079200000,
  p 568489602834401901900000, p 572044618635542709100000, p 575576261529433478400000, p 579084430785048692600000,
  p 582569026590280770700000, p 586029950054647971900000, p 589467103211764966800000, p 592880389021937658100000,
  p 596269711374735234200000, p 599634975091346139600000, p 602976085927117819300000, p 606292950573932964300000,
  p 609585476662546184000000, p 612853572764976515400000, p 616097148396786090800000, p 619316114019312835200000,
  p 622510381041952711900000, p 625679861824330403800000, p 628824469678432914500000, p 631944118870779382600000,
  p 635038724624483342400000, p 638108203121307503700000, p 641152471503664321900000, p 644171447876629144600000,
  p 647165051309870524900000, p 650133201839531095700000, p 653075820470151377500000, p 655992829176480505100000,
  p 658884150905253993300000, p 661749709577006848700000, p 664589430087782055200000, p 667403238310794498900000,
  p 670191061098142381600000, p 672952826282397311700000, p 675688462678170108700000, p 678397900083732010800000,
  p 681081069282436931400000, p 683737902044240968300000, p 686368331127189279000000, p 688972290278723085600000,
  p 691549714237132723400000, p 694100538732857382000000, p 696624700489761644800000, p 699122137226436640500000,
  p 701592787657404483100000, p 704036591494287800600000, p 706453489446995310100000, p 708843423224826078100000,
  p 711206335537518811000000, p 713542170096340285500000, p 715850871615068395200000, p 718132385810966631300000,
  p 720386659405700775400000, p 722613640126271855600000, p 724813276705860848300000, p 726985518884629578600000,
  p 729130317410554688400000, p 731247624040156762200000, p 733337391539204191600000, p 735399573683424736900000,
  p 737434125259136858000000, p 739441002063828570000000, p 741420160906799291000000, p 743371559609618242500000,
  p 745295157006662105500000, p 747190912945605622100000, p 749058788287782851100000, p 750898744908638305200000,
  p 752710745698060559500000, p 754494754560684310700000, p 756250736416208264700000, p 757978657199622710800000,
  p 759678483861411400400000, p 761350184367758629200000, p 762993727700650393700000, p 764609083858018481100000,
  p 766196223853779718000000, p 767755119717861882500000, p 769285744496251192500000, p 770788072250885403100000,
  p 772262078059612064700000, p 773707738016109159900000, p 775125029229664901800000, p 776513929825067687200000,
  p 777874418942348057000000, p 779206476736531714400000, p 780510084377364138000000, p 781785224048982935700000,
  p 783031878949541951800000, p 784250033290837434000000, p 785439672297880207700000, p 786600782208401604200000,
  p 787733350272391049500000, p 788837364751534988800000, p 789912814918655378800000, p 790959691057105786600000,
  p 791977984460133554000000, p 792967687430197942400000, p 793928793278254017800000, p 794861296323029595400000,
  p 795765191890232689000000, p 796640476311726215300000, p 797487146924701940900000, p 798305202070787099500000,
  p 799094641095111869400000, p 799855464345387585200000, p 800587673170894743300000, p 801291269921473067600000,
  p 801966257946467773200000, p 802612641593632571000000, p 803230426208009253000000, p 803819618130785051700000,
  p 804380224698074755600000, p 804912254239716377600000, p 805415716078010770000000, p 805890620526414618700000,
  p 806336978888231377600000, p 806754803455244197700000, p 807144107506317957600000, p 807504905305985029200000,
  p 807837212102980521500000, p 808141044128737732500000, p 808416418595881867600000, p 808663353696656211600000,
  p 808881868601341144800000, p 809071983456615263600000, p 809233719383912054700000, p 809367098477724203200000,
  p 809472143803873747800000, p 809548879397769117900000, p 809597330262612079200000, p 809617522367568902400000,
  p 809609482645934157800000, p 809573238993234012100000, p 809508820265316623300000, p 809416256276397540900000,
  p 809295577797085915900000, p 809146816552367776100000, p 808970005219564148800000, p 808765177426258282200000,
  p 808532367748187198000000, p 808271611707100609000000, p 807982945768597393300000, p 807666407339922495800000,
  p 807322034767739434500000, p 806949867335859439600000, p 806549945262961917800000, p 806122309700257780100000,
  p 805667002729147999100000, p 805184067358827846600000, p 804673547523879640500000, p 804135488081822880800000,
  p 803569934810647690100000, p 802976934406296537000000, p 802356534480144659000000, p 801708783556422588000000,
  p 801033731069629895300000, p 800331427361905133200000, p 799601923680382333800000, p 798845272174497633700000,
  p 798061525893286466400000, p 797250738782636844700000, p 796412965682528222800000, p 795548262324217666600000,
  p 794656685327437407700000, p 793738292197512275400000, p 792793141322497294300000, p 791821291970260746800000,
  p 790822804285531782100000, p 789797739286949001400000, p 788746158864058626900000, p 787668125774284048600000,
  p 786563703639886696900000, p 785432956944878994300000, p 784275951031922777600000, p 783092752099191291900000,
  p 781883427197215571800000, p 780648044225689839400000, p 779386671930266928200000, p 778099379899310664000000,
  p 776786238560629163300000, p 775447319178183954900000, p 774082693848773513800000, p 772692435498682317200000,
  p 771276617880308542500000, p 769835315568775067900000, p 768368603958492768500000, p 766876559259729233100000,
  p 765359258495123488000000, p 763816779496186192300000, p 762249200899781402200000, p 760656602144583072300000,
  p 759039063467479950500000, p 757396665899997927100000, p 755729491264685304700000, p 754037622171423367100000,
  p 752321142013806878400000, p 750580134965417680200000, p 748814685976109130900000, p 747024880768277208800000,
  p 745210805833080441900000, p 743372548426652029900000, p 741510196566303402500000, p 739623839026658821800000,
  p 737713565335822293500000, p 735779465771492112100000, p 733821631357045481100000, p 731840153857617821600000,
  p 729835125776154541200000, p 727806640349453696400000, p 725754791544148264400000, p 723679674052698823800000,
  p 721581383289381030200000, p 719460015386195464100000, p 717315667188802414400000, p 715148436252437363700000,
  p 712958420837760445900000, p 710745719906727478400000, p 708510433118450587200000, p 706252660824972095000000,
  p 703972504067091426800000, p 701670064570150166200000, p 699345444739739264700000, p 696998747657498951200000,
  p 694630077076812280800000, p 692239537418463555700000, p 689827233766385976100000]

/-- src/mid_qual_coeffs.h:14268-14758 -/
def row29 : List ℤ := [
  p 687393271863274198800000, p 684937758106231482600000, p 682460799542415641000000, p 679962503864610184000000,
  p 677442979406822675200000, p 674902335139870943700000, p 672340680666894488000000, p 669758126218910005200000,
  p 667154782650329733700000, p 664530761434431438900000, p 661886174658857565600000, p 659221135021066466900000,
  p 656535755823789380800000, p 653830150970440894000000, p 651104434960531682100000, p 648358722885082768500000,
  p 645593130421972345400000, p 642807773831316204900000, p 640002769950820198600000, p 637178236191090086700000,
  p 634334290530951363000000, p 631471051512777102300000, p 628588638237706194900000, p 625687170360987349400000,
  p 622766768087198627700000, p 619827552165453429100000, p 616869643884696244700000, p 613893165068851612100000,
  p 610898238072043759500000, p 607884985773800095300000, p 604853531574174032800000, p 601803999388927446700000,
  p 598736513644687324900000, p 595651199274037260000000, p 592548181710648080500000, p 589427586884408915800000,
  p 586289541216464152100000, p 583134171614329644200000, p 579961605466938344600000, p 576771970639720628200000,
  p 573565395469608071600000, p 570342008760079083100000, p 567101939776196292300000, p 563845318239578128900000,
  p 560572274323409649500000, p 557282938647448160400000, p 553977442272958584200000, p 550655916697690784100000,
  p 547318493850868924500000, p 543965306088046171900000, p 540596486186139375000000, p 537212167338300245400000,
  p 533812483148789576100000, p 530397567627969093700000, p 526967555187145752700000, p 523522580633417437800000,
  p 520062779164643025100000, p 516588286364230296800000, p 513099238196021434400000, p 509595770999169404300000,
  p 506078021482931185800000, p 502546126721529844700000, p 499000224148999694600000, p 495440451553962827500000,
  p 491866947074459637800000, p 488279849192780918600000, p 484679296730217558200000, p 481065428841884017200000,
  p 477438385011478487300000, p 473798305046104254400000, p 470145329070987844800000, p 466479597524265096800000,
  p 462801251151767883300000, p 459110431001735481800000, p 455407278419575113400000, p 451691935042639069500000,
  p 447964542794911959000000, p 444225243881763278000000, p 440474180784718085500000, p 436711496256079144700000,
  p 432937333313763354900000, p 429151835235964604400000, p 425355145555811092900000, p 421547408056187290700000,
  p 417728766764344152300000, p 413899365946630707400000, p 410059350103224187900000, p 406208863962765449300000,
  p 402348052477077985100000, p 398477060815891981700000, p 394596034361464941300000, p 390705118703303243500000,
  p 386804459632865654600000, p 382894203138195497800000, p 378974495398629041000000, p 375045482779459758800000,
  p 371107311826649106400000, p 367160129261446220600000, p 363204081975093597700000, p 359239317023519219400000,
  p 355265981621966878800000, p 351284223139685975100000, p 347294189094634318300000, p 343296027148098589500000,
  p 339289885099390965800000, p 335275910880561628700000, p 331254252550967887500000, p 327225058292071960000000,
  p 323188476402060402500000, p 319144655290462455500000, p 315093743472950969100000, p 311035889565919820000000,
  p 306971242281200323100000, p 302899950420776450800000, p 298822162871408491500000, p 294738028599350924400000,
  p 290647696645073331200000, p 286551316117891752300000, p 282449036190695126900000, p 278341006094671680000000,
  p 274227375113953776300000, p 270108292580350920800000, p 265983907868085197800000, p 261854370388451033400000,
  p 257719829584565597000000, p 253580434926069004000000, p 249436335903892769600000, p 245287682024925317000000,
  p 241134622806778343900000, p 236977307772552836500000, p 232815886445524825500000, p 228650508343922485900000,
  p 224481322975712751100000, p 220308479833298371500000, p 216132128388314746900000, p 211952418086441748100000,
  p 207769498342069442600000, p 203583518533214242700000, p 199394627996246891900000, p 195202976020631183700000,
  p 191008711843857240900000, p 186811984646140417800000, p 182612943545281531100000, p 178411737591520504600000,
  p 174208515762309539000000, p 170003426957183670200000, p 165796619992638483000000, p 161588243596927160600000,
  p 157378446404953539800000, p 153167376953176686500000, p 148955183674431308900000, p 144742014892856808900000,
  p 140528018818779549600000, p 136313343543657627000000, p 132098137034939339400000, p 127882547131021349400000,
  p 123666721536212672900000, p 119450807815621933900000, p 115234953390143621300000, p 111019305531453980100000,
  p 106804011356927282800000, p 102589217824651792400000, p 98375071728468372130000, p 94161719692868324730000,
  p 89949308168141438770000, p 85737983425347919680000, p 81527891551297178490000, p 77319178443733486280000,
  p 73111989806288091470000, p 68906471143596366310000, p 64702767756415603770000, p 60501024736654960320000,
  p 56301386962567805280000, p 52103999093806430790000, p 47909005566589112220000, p 43716550588880341590000,
  p 39526778135493039140000, p 35339831943294807650000, p 31155855506426865110000, p 26974992071445999060000,
  p 22797384632570827990000, p 18623175926950976570000, p 14452508429800093860000, p 10285524349783559000000,
  p 6122365624229527987000, p 1963173914354139532000, m 2191909399307805455000, m 6342743221698878667000,
  m 10489186747869568030000, m 14631099467604081300000, m 18768341170121349750000, m 22900771948670670170000,
  m 27028252205112106720000, m 31150642654571504460000, m 35267804329989581430000, m 39379598586655614960000,
  m 43485887106815300830000, m 47586531904162230220000, m 51681395328373120940000, m 55770340069567317140000,
  m 59853229162849040760000, m 63929925992743872320000, m 68000294297617565870000, m 72064198174168772820000,
  m 76121502081813880720000, m 80172070847056266720000, m 84215769667925089040000, m 88252464118311336720000,
  m 92282020152271841160000, m 96304304108467118940000, m 100319182714343004000000, m 104326523090482432100000,
  m 108326192754938264600000, m 112318059627361226300000, m 116301992033345685000000, m 120277858708608831700000,
  m 124245528803162703500000, m 128204871885552804200000, m 132155757946992587900000, m 136098057405477910500000,
  m 140031641109968242700000, m 143956380344464435200000, m 147872146832064149700000, m 151778812739086896200000,
  m 155676250679081081500000, m 159564333716870034500000, m 163442935372520268000000, m 167311929625387612400000,
  m 171171190918051189300000, m 175020594160235458400000, m 178860014732790242700000, m 182689328491567374300000,
  m 186508411771279885300000, m 190317141389420720700000, m 194115394650076718100000, m 197903049347715698200000,
  m 201679983771087750000000, m 205446076706885958000000, m 209201207443560489700000, m 212945255775109779700000,
  m 216678102004686911500000, m 220399626948347839700000, m 224109711938779392200000, m 227808238828829459600000,
  m 231495089995237219900000, m 235170148342201735600000, m 238833297304938814400000, m 242484420853298260400000,
  m 246123403495275441900000, m 249750130280500552300000, m 253364486803788315300000, m 256966359208580543100000,
  m 260555634190370074700000, m 264132199000179492100000, m 267695941447929628500000, m 271246749905833391900000,
  m 274784513311721121800000, m 278309121172425793300000, m 281820463567065114300000, m 285318431150302154800000,
  m 288802915155663439500000, m 292273807398749107600000, m 295731000280421605600000, m 299174386790052602000000,
  m 302603860508663270000000, m 306019315612032479000000, m 309420646873913242300000, m 312807749669015032100000,
  m 316180519976126445000000, m 319538854381214989500000, m 322882650080334645400000, m 326211804882723321300000,
  m 329526217213737464100000, m 332825786117776207000000, m 336110411261258154400000, m 339379992935490669400000,
  m 342634432059524523400000, m 345873630183048119700000, m 349097489489189505700000, m 352305912797288949000000,
  m 355498803565723175300000, m 358676065894620698800000, m 361837604528598944700000, m 364983324859433934600000,
  m 368113132928776321100000, m 371226935430774723300000, m 374324639714675915000000, m 377406153787464098100000,
  m 380471386316407367700000, m 383520246631578103200000, m 386552644728419111900000, m 389568491270207424400000,
  m 392567697590494562700000, m 395550175695626605300000, m 398515838267060531100000, m 401464598663795651000000,
  m 404396370924780049200000, m 407311069771149785500000, m 410208610608615007800000, m 413088909529716284900000,
  m 415951883316056491400000, m 418797449440571831200000, m 421625526069714824700000, m 424436032065604661000000,
  m 427228886988224659200000, m 430004011097517976600000, m 432761325355462771700000, m 435500751428185639900000,
  m 438222211687979692700000, m 440925629215297321600000, m 443610927800784215400000, m 446278031947206204500000,
  m 448926866871402342600000, m 451557358506159166900000, m 454169433502137000400000, m 456763019229694555200000,
  m 459338043780699008600000, m 461894435970364159200000, m 464432125338995666900000, m 466951042153719868200000,
  m 469451117410239152800000, m 471932282834493666700000, m 474394470884305667300000, m 476837614751077871700000,
  m 479261648361318549900000, m 481666506378257257000000, m 484052124203432809900000, m 486418437978139287800000,
  m 488765384584987500100000, m 491092901649344102000000, m 493400927540764856100000, m 495689401374431416400000,
  m 497958263012526747800000, m 500207453065573248000000, m 502436912893796348800000, m 504646584608409620900000,
  m 506836411072871147200000, m 509006335904164941600000, m 511156303473997908000000, m 513286258910002112300000,
  m 515396148096869074500000, m 517485917677528947100000, m 519555515054233307800000, m 521604888389621906000000,
  m 523633986607803503800000, m 525642759395367111700000, m 527631157202359288100000, m 529599131243284533000000,
  m 531546633498031087900000, m 533473616712759005800000, m 535380034400844057900000, m 537265840843664430600000,
  m 539130991091461256500000, m 540975440964172366200000, m 542799147052133875400000, m 544602066716881627100000,
  m 546384158091850827300000, m 548145380083046081900000, m 549885692369732901100000, m 551605055405055477400000,
  m 553303430416633864300000, m 554980779407156276200000, m 556637065154924008000000, m 558272251214359167300000,
  m 559886301916521296600000, m 561479182369556992100000, m 563050858459142691300000, m 564601296848886912900000,
  m 566130464980726965700000, m 567638331075278061900000, m 569124864132142531600000, m 570590033930235950700000,
  m 572033811028047241300000, m 573456166763865161000000, m 574857073256022899600000, m 576236503403069490700000,
  m 577594430883921058600000, m 578930830158014774400000, m 580245676465407302300000, m 581538945826827057200000,
  m 582810615043776120500000, m 584060661698494135900000, m 585289064153982812100000, m 586495801553990636100000,
  m 587680853822906837700000, m 588844201665711733400000, m 589985826567848031300000, m 591105710795071536700000,
  m 592203837393291991300000, m 593280190188375097400000, m 594334753785907788900000, m 595367513570956019600000,
  m 596378455707786232400000, m 597367567139550290100000, m 598334835587960756200000, m 599280249552925628100000,
  m 600203798312168431900000, m 601105471920796818700000, m 601985261210883086800000, m 602843157790978892800000,
  m 603679154045627143500000, m 604493243134839085600000, m 605285418993547542400000, m 606055676331021010700000,
  m 606804010630279818400000, m 607530418147449072100000, m 608234895911108353100000, m 608917441721623089700000,
  m 609578054150415322800000, m 610216732539231002300000, m 610833476999405548100000, m 611428288411037471800000,
  m 612001168422197775800000, m 612552119448091106700000, m 613081144670170829200000, m 613588248035266134800000,
  m 614073434254656025000000, m 614536708803117707000000, m 614978077917962954500000, m 615397548598049857900000,
  m 615795128602738520300000, m 616170826450863234400000, m 616524651419648821700000, m 616856613543618516300000,
  m 617166723613454685000000, m 617454993174864318100000, m 617721434527396273200000, m 617966060723236509900000,
  m 618188885565987712000000, m 618389923609417792500000, m 618569190156173054200000, m 618726701256486796700000,
  m 618862473706850301100000, m 618976525048655842900000, m 619068873566823766300000, m 619139538288403213300000,
  m 619188538981136639900000, m 619215896152018911400000, m 619221631045815197800000, m 619205765643562498400000,
  m 619168322661049698600000, m 619109325547256752300000, m 619028798482798093100000, m 618926766378311943100000,
  m 618803254872838780900000, m 618658290332189291300000, m 618491899847262659700000, m 618304111232354566100000,
  m 618094953023444254300000, m 617864454476453519400000, m 617612645565480109800000, m 617339556981007708500000,
  m 617045220128100628400000, m 616729667124569017100000, m 616392930799104896300000, m 616035044689405191300000,
  m 615656043040268955700000, m 615255960801669443700000, m 614834833626799943400000, m 614392697870105300100000,
  m 613929590585293488900000, m 613445549523299374900000, m 612940613130263868700000, m 612414820545458329900000,
  m 611868211599200296500000, m 611300826810755445700000, m 610712707386199763600000, m 610103895216264477000000,
  m 609474432874175997200000, m 608824363613446966300000, m 608153731365663617800000, m 607462580738252970300000,
  m 606750957012214026300000, m 606018906139840947400000, m 605266474742418257600000, m 604493710107898265000000,
  m 603700660188551054200000, m 602887373598606779400000, m 602053899611860771300000, m 601200288159265089200000,
  m 600326589826506631200000, m 599432855851552716900000, m 598519138122183226200000, m 597585489173492706400000,
  m 596631962185397032000000, m 595658610980083036300000, m 594665490019471911600000, m 593652654402643145500000,
  m 592620159863243602100000, m 591568062766874812300000, m 590496420108477227400000]

/-- src/mid_qual_coeffs.h:14759-15249 -/
def row30 : List ℤ := [
  m 589405289509654082600000, m 588294729216031907400000, m 587164798094559018500000, m 586015555630792738000000,
  m 584847061926181948500000, m 583659377695323194900000, m 582452564263189571600000, m 581226683562352563000000,
  m 579981798130179272500000, m 578717971106022062100000, m 577435266228363414100000, m 576133747831970876600000,
  m 574813480845026638000000, m 573474530786226960800000, m 572116963761871749800000, m 570740846462946421200000,
  m 569346246162169729300000, m 567933230711025328700000, m 566501868536801902800000, m 565052228639559891300000,
  m 563584380589161860200000, m 562098394522212124600000, m 560594341139001466900000, m 559072291700473322400000,
  m 557532318025112769300000, m 555974492485860022200000, m 554398888007002457900000, m 552805578061028694800000,
  m 551194636665488634600000, m 549566138379843746800000, m 547920158302263793000000, m 546256772066443284700000,
  m 544576055838405146400000, m 542878086313252337400000, m 541162940711937905600000, m 539430696778008911100000,
  m 537681432774342001900000, m 535915227479839416600000, m 534132160186140164800000, m 532332310694311151500000,
  m 530515759311498834500000, m 528682586847593134900000, m 526832874611882673500000, m 524966704409656338500000,
  m 523084158538829032200000, m 521185319786553647100000, m 519270271425768315800000, m 517339097211815001700000,
  m 515391881378974713200000, m 513428708636990576700000, m 511449664167651081400000, m 509454833621258941200000,
  m 507444303113162515200000, m 505418159220251449500000, m 503376488977419684700000, m 501319379874039738000000,
  m 499246919850435144100000, m 497159197294294564200000, m 495056301037117771300000, m 492938320350647107800000,
  m 490805344943245490600000, m 488657464956314207200000, m 486494770960665175900000, m 484317353952911798400000,
  m 482125305351802243200000, m 479918716994583410400000, m 477697681133354380400000, m 475462290431367278800000,
  m 473212637959356872800000, m 470948817191862631700000, m 468670922003498041900000, m 466379046665246538200000,
  m 464073285840757056300000, m 461753734582579194800000, m 459420488328433017900000, m 457073642897477231000000,
  m 454713294486486772400000, m 452339539666151780100000, m 449952475377260008100000, m 447552198926878374400000,
  m 445138807984617830500000, m 442712400578770511400000, m 440273075092505812800000, m 437820930260071400300000,
  m 435356065162913338200000, m 432878579225861052800000, m 430388572213285082800000, m 427886144225207232600000,
  m 425371395693452359600000, m 422844427377787692800000, m 420305340362007128200000, m 417754236050065885600000,
  m 415191216162168923800000, m 412616382730896327300000, m 410029838097249275200000, m 407431684906756617400000,
  m 404822026105562584500000, m 402200964936465818300000, m 399568604934994180600000, m 396925049925483789700000,
  m 394270404017086500700000, m 391604771599841244300000, m 388928257340728778000000, m 386240966179642411000000,
  m 383543003325489972600000, m 380834474252183890200000, m 378115484694616793300000, m 375386140644755458800000,
  m 372646548347579280700000, m 369896814297104989000000, m 367137045232402965800000, m 364367348133554742500000,
  m 361587830217655059600000, m 358798598934822164400000, m 355999761964130427000000, m 353191427209615597500000,
  m 350373702796256969200000, m 347546697065913463800000, m 344710518573312192000000, m 341865276081998578600000,
  m 339011078560318959600000, m 336148035177338344900000, m 333276255298815317100000, m 330395848483165167400000,
  m 327506924477373917400000, m 324609593212960804000000, m 321703964801940277400000, m 318790149532722415300000,
  m 315868257866070963100000, m 312938400431063705400000, m 310000688020981929700000, m 307055231589266244400000,
  m 304102142245475052400000, m 301141531251140025500000, m 298173510015785998500000, m 295198190092815717000000,
  m 292215683175396808100000, m 289226101092478963900000, m 286229555804643506900000, m 283226159400056876400000,
  m 280216024090416959700000, m 277199262206837134800000, m 274175986195792113400000, m 271146308615064326200000,
  m 268110342129628995700000, m 265068199507599111600000, m 262019993616175827900000, m 258965837417532126000000,
  m 255905843964770096300000, m 252840126397837182100000, m 249768797939484165700000, m 246691971891153764800000,
  m 243609761628935854500000, m 240522280599526807700000, m 237429642316117929800000, m 234331960354360356100000,
  m 231229348348323580200000, m 228121919986399039500000, m 225009789007260595300000, m 221893069195849027000000,
  m 218771874379234499800000, m 215646318422669201800000, m 212516515225497489000000, m 209382578717070340800000,
  m 206244622852801411800000, m 203102761610053894100000, m 199957108984137208900000, m 196807778984299118400000,
  m 193654885629660454500000, m 190498542945215254000000, m 187338864957836042200000, m 184175965692216856800000,
  m 181009959166889103700000, m 177840959390238359900000, m 174669080356461249000000, m 171494436041600133600000,
  m 168317140399538994600000, m 165137307358048532600000, m 161955050814759765900000, m 158770484633215583600000,
  m 155583722638919451900000, m 152394878615329964400000, m 149204066299924429700000, m 146011399380266984800000,
  m 142816991490020601700000, m 139620956205025175300000, m 136423407039396401700000, m 133224457441512170300000,
  m 130024220790190479500000, m 126822810390729714200000, m 123620339470951687000000, m 120416921177393662700000,
  m 117212668571366483700000, m 114007694625022101400000, m 110802112217571119300000, m 107596034131326594500000,
  m 104389573047868075100000, m 101182841544206493500000, m 97975952088887895470000, m 94769017038173620070000,
  m 91562148632228759680000, m 88355458991248834210000, m 85149060111665964390000, m 81943063862360046010000,
  m 78737581980812122550000, m 75532726069342068120000, m 72328607591308540160000, m 69125337867364483970000,
  m 65923028071644874550000, m 62721789228032073810000, m 59521732206430803330000, m 56322967718983147040000,
  m 53125606316362558570000, m 49929758384076968930000, m 46735534138712446170000, m 43543043624256604770000,
  m 40352396708438325590000, m 37163703078963710870000, m 33977072239945433730000, m 30792613508197240130000,
  m 27610436009538672750000, m 24430648675255655710000, m 21253360238388582780000, m 18078679230145427570000,
  m 14906713976318213150000, m 11737572593641968040000, m 8571362986233174608000, m 5408192842039840435000,
  m 2248169629233924849000, p 908599407315890074600, p 4062007249559963914000, p 7211947109840360059000,
  p 10358312434375388480000, p 13500996906778049310000, p 16639894451516743470000, p 19774899237439886080000,
  p 22905905681219848360000, p 26032808450784410070000, p 29155502468804470230000, p 32273882916100413780000,
  p 35387845235035965970000, p 38497285132967483280000, p 41602098585612362920000, p 44702181840396411980000,
  p 47797431419901922080000, p 50887744125120743410000, p 53973017038838642190000, p 57053147529004167480000,
  p 60128033251942761790000, p 63197572155737323790000, p 66261662483481018060000, p 69320202776526114060000,
  p 72373091877783884170000, p 75420228934945063610000, p 78461513403684223510000, p 81496845050920170150000,
  p 84526123957990637980000, p 87549250523816208410000, p 90566125468115267400000, p 93576649834536360400000,
  p 96580724993777984120000, p 99578252646758631050000, p 102569134827699298200000, p 105553273907232463800000,
  p 108530572595455919300000, p 111500933945041352800000, p 114464261354263637000000, p 117420458570013312300000,
  p 120369429690860894400000, p 123311079170039284200000, p 126245311818409128000000, p 129172032807476586700000,
  p 132091147672327470500000, p 135002562314539637200000, p 137906183005187803600000, p 140801916387657349000000,
  p 143689669480582746200000, p 146569349680763117600000, p 149440864765933211000000, p 152304122897682235500000,
  p 155159032624255032500000, p 158005502883339234800000, p 160843443004903056900000, p 163672762713950171800000,
  p 166493372133258188700000, p 169305181786166461900000, p 172108102599277218100000, p 174902045905148524800000,
  p 177686923445023362700000, p 180462647371481014700000, p 183229130251103770200000, p 185986285067092833300000,
  p 188734025221930798500000, p 191472264539965006000000, p 194200917269976396100000, p 196919898087789130000000,
  p 199629122098800738000000, p 202328504840499121600000, p 205017962285014901600000, p 207697410841603156400000,
  p 210366767359094342200000, p 213025949128432031500000, p 215674873885026308800000, p 218313459811223881300000,
  p 220941625538751437600000, p 223559290151020172600000, p 226166373185568685800000, p 228762794636387726800000,
  p 231348474956233828800000, p 233923335058986499700000, p 236487296321918541600000, p 239040280587958021200000,
  p 241582210167985369700000, p 244113007843052337500000, p 246632596866581596800000, p 249140900966612313800000,
  p 251637844347949932200000, p 254123351694348102400000, p 256597348170622659500000, p 259059759424818292700000,
  p 261510511590294712600000, p 263949531287790051200000, p 266376745627532832800000, p 268792082211262385500000,
  p 271195469134245402300000, p 273586834987315380200000, p 275966108858847548100000, p 278333220336707720800000,
  p 280688099510237201800000, p 283030676972167646900000, p 285360883820508768600000, p 287678651660478270700000,
  p 289983912606350900000000, p 292276599283291236600000, p 294556644829223291900000, p 296823982896612611500000,
  p 299078547654269249600000, p 301320273789096749300000, p 303549096507873704100000, p 305764951538969127700000,
  p 307967775134031967000000, p 310157504069716717700000, p 312334075649334881500000, p 314497427704485226200000,
  p 316647498596717873800000, p 318784227219122114400000, p 320907552997896168500000, p 323017415893970833600000,
  p 325113756404483782700000, p 327196515564343959400000, p 329265634947763447300000, p 331321056669671757400000,
  p 333362723387244227700000, p 335390578301317178600000, p 337404565157799977500000, p 339404628249106023000000,
  p 341390712415517213300000, p 343362763046530254600000, p 345320726082225519900000, p 347264548014572917200000,
  p 349194175888709187300000, p 351109557304251957000000, p 353010640416528953800000, p 354897373937827006100000,
  p 356769707138585316600000, p 358627589848617032600000, p 360470972458265764900000, p 362299805919547523100000,
  p 364114041747299591000000, p 365913632020286358000000, p 367698529382264331800000, p 369468687043080867900000,
  p 371224058779704541800000, p 372964598937233023000000, p 374690262429944534500000, p 376401004742221592700000,
  p 378096781929539908900000, p 379777550619435442400000, p 381443268012366233700000, p 383093891882642866500000,
  p 384729380579324343900000, p 386349693027019693000000, p 387954788726771644700000, p 389544627756847504000000,
  p 391119170773520264300000, p 392678379011863543700000, p 394222214286488788900000, p 395750638992260956600000,
  p 397263616105024983500000, p 398761109182286556400000, p 400243082363857592500000, p 401709500372524975000000,
  p 403160328514656188400000, p 404595532680808098200000, p 406015079346286561600000, p 407418935571736504800000,
  p 408807069003654533600000, p 410179447874899376000000, p 411536041005210618400000, p 412876817801664179200000,
  p 414201748259118024100000, p 415510802960659454200000, p 416803953078010163000000, p 418081170371891017300000,
  p 419342427192433077500000, p 420587696479478192900000, p 421816951762921392600000, p 423030167163033056600000,
  p 424227317390701884900000, p 425408377747729313200000, p 426573324127055134900000, p 427722133012967402800000,
  p 428854781481319920100000, p 429971247199698123500000, p 431071508427562414200000, p 432155544016408403700000,
  p 433223333409862268600000, p 434274856643767921200000, p 435310094346274992000000, p 436329027737881439000000,
  p 437331638631460815500000, p 438317909432264492300000, p 439287823137925073700000, p 440241363338414275500000,
  p 441178514215978523600000, p 442099260545083009500000, p 443003587692305112900000, p 443891481616209555700000,
  p 444762928867229140200000, p 445617916587496317800000, p 446456432510651882200000, p 447278464961678814400000,
  p 448084002856641262200000, p 448873035702467427600000, p 449645553596694238200000, p 450401547227159812400000,
  p 451141007871722760100000, p 451863927397931771600000, p 452570298262672439100000, p 453260113511820854000000,
  p 453933366779847818700000, p 454590052289411024300000, p 455230164850938391400000, p 455853699862181975300000,
  p 456460653307738640200000, p 457051021758582930400000, p 457624802371550719700000, p 458181992888807409400000,
  p 458722591637314284500000, p 459246597528255187700000, p 459754010056449369300000, p 460244829299742653700000,
  p 460719055918387872000000, p 461176691154395804400000, p 461617736830861457200000, p 462042195351290176400000,
  p 462450069698888525700000, p 462841363435827083200000, p 463216080702511749000000, p 463574226216810763200000,
  p 463915805273266653800000, p 464240823742305094100000, p 464549288069397410900000, p 464841205274223363600000,
  p 465116582949814678500000, p 465375429261663563800000, p 465617752946828188500000, p 465843563313012953700000,
  p 466052870237625128100000, p 466245684166820750400000, p 466422016114528359500000, p 466581877661445022800000,
  p 466725280954029383900000, p 466852238703466032500000, p 466962764184607214700000, p 467056871234908797000000,
  p 467134574253333324700000, p 467195888199245816200000, p 467240828591281801700000, p 467269411506205170600000,
  p 467281653577739943500000, p 467277571995389684400000, p 467257184503235120600000, p 467220509398714523600000,
  p 467167565531384683100000, p 467098372301665888400000, p 467012949659569075300000, p 466911318103399228500000,
  p 466793498678448322100000, p 466659512975669773600000, p 466509383130324980100000]

/-- src/mid_qual_coeffs.h:15250-15740 -/
def row31 : List ℤ := [
  p 466343131820625301400000, p 466160782266349430500000, p 465962358227444068500000, p 465747884002604920600000,
  p 465517384427847067400000, p 465270884875048447400000, p 465008411250484340700000, p 464729989993339898600000,
  p 464435648074205324600000, p 464125412993557232400000, p 463799312780219458500000, p 463457375989810539100000,
  p 463099631703166412100000, p 462726109524760572700000, p 462336839581089099500000, p 461931852519057795400000,
  p 461511179504333550300000, p 461074852219700093500000, p 460622902863376776200000, p 460155364147336594200000,
  p 459672269295597485400000, p 459173652042506417100000, p 458659546630994200000000, p 458129987810834422400000,
  p 457585010836865195600000, p 457024651467203798300000, p 456448945961454707500000, p 455857931078881145600000,
  p 455251644076583295300000, p 454630122707646861900000, p 453993405219273475300000, p 453341530350912609200000,
  p 452674537332359891000000, p 451992465881847116500000, p 451295356204126736300000, p 450583248988518014400000,
  p 449856185406964680700000, p 449114207112056912000000, p 448357356235053693400000, p 447585675383873357700000,
  p 446799207641093612100000, p 445997996561908575900000, p 445182086172094438000000, p 444351520965947900100000,
  p 443506345904218820700000, p 442646606412019547600000, p 441772348376722379000000, p 440883618145855940300000,
  p 439980462524963179800000, p 439062928775465870200000, p 438131064612514093500000, p 437184918202805584900000,
  p 436224538162404535400000, p 435249973554558224900000, p 434261273887461452100000, p 433258489112059235700000,
  p 432241669619797257600000, p 431210866240360705300000, p 430166130239439243000000, p 429107513316424492000000,
  p 428035067602131795800000, p 426948845656506157600000, p 425848900466290934100000, p 424735285442712033900000,
  p 423608054419141787200000, p 422467261648735385000000, p 421312961802072360100000, p 420145209964787659000000,
  p 418964061635173333200000, p 417769572721776272100000, p 416561799540993496500000, p 415340798814654225800000,
  p 414106627667564701600000, p 412859343625071985700000, p 411599004610612470400000, p 410325668943226345300000,
  p 409039395335082146600000, p 407740242888993663100000, p 406428271095898136500000, p 405103539832351645400000,
  p 403766109358008119000000, p 402416040313072600000000, p 401053393715750984300000, p 399678230959716294900000,
  p 398290613811498898800000, p 396890604407951317000000, p 395478265253637465500000, p 394053659218218102100000,
  p 392616849533878611000000, p 391167899792677802600000, p 389706873943928698700000, p 388233836291572052200000,
  p 386748851491506065700000, p 385251984548937197800000, p 383743300815724247100000, p 382222865987680965800000,
  p 380690746101897050300000, p 379147007534056475100000, p 377591716995709532600000, p 376024941531575012000000,
  p 374446748516810287100000, p 372857205654291269700000, p 371256380971857723200000, p 369644342819568766900000,
  p 368021159866962121900000, p 366386901100266356100000, p 364741635819635626100000, p 363085433636381113600000,
  p 361418364470163212000000, p 359740498546199543600000, p 358051906392480240700000, p 356352658836909066400000,
  p 354642827004537995300000, p 352922482314711261400000, p 351191696478212660300000, p 349450541494469228500000,
  p 347699089648662170700000, p 345937413508884243400000, p 344165585923290580700000, p 342383680017204199600000,
  p 340591769190250236500000, p 338789927113484384000000, p 336978227726482729400000, p 335156745234453927900000,
  p 333325554105351105000000, p 331484729066938005600000, p 329634345103890921100000, p 327774477454873295600000,
  p 325905201609620956400000, p 324026593305988259800000, p 322138728527022479500000, p 320241683498036786400000,
  p 318335534683629667900000, p 316420358784751186000000, p 314496232735751181900000, p 312563233701395714700000,
  p 310621439073906810000000, p 308670926470007249700000, p 306711773727897057800000, p 304744058904324148500000,
  p 302767860271573171700000, p 300783256314445359200000, p 298790325727318439700000, p 296789147411117702900000,
  p 294779800470286305400000, p 292762364209834288600000, p 290736918132279557100000, p 288703541934647457200000,
  p 286662315505468458800000, p 284613318921725041500000, p 282556632445840974200000, p 280492336522668046100000,
  p 278420511776421568800000, p 276341239007661361800000, p 274254599190267803600000, p 272160673468370612800000,
  p 270059543153326091800000, p 267951289720658864200000, p 265835994807029306600000, p 263713740207175556500000,
  p 261584607870827547900000, p 259448679899712444500000, p 257306038544445148200000, p 255156766201486895000000,
  p 253000945410099568500000, p 250838658849250465500000, p 248669989334564874200000, p 246495019815272419600000,
  p 244313833371110527100000, p 242126513209270659200000, p 239933142661341271800000, p 237733805180209055700000,
  p 235528584337004685300000, p 233317563818019347300000, p 231100827421652901600000, p 228878459055308942800000,
  p 226650542732333420000000, p 224417162568955506300000, p 222178402781181738800000, p 219934347681735668200000,
  p 217685081676996045300000, p 215430689263891936200000, p 213171255026840773300000, p 210906863634694700000000,
  p 208637599837609448400000, p 206363548464034513200000, p 204084794417610571900000, p 201801422674062973900000,
  p 199513518278199422400000, p 197221166340778636000000, p 194924452035461544900000, p 192623460595758096300000,
  p 190318277311926842800000, p 188008987527923861800000, p 185695676638354223300000, p 183378430085374288400000,
  p 181057333355647432500000, p 178732471977298656700000, p 176403931516824693000000, p 174071797576057560700000,
  p 171736155789100231500000, p 169397091819295308500000, p 167054691356143751200000, p 164709040112271873400000,
  p 162360223820404170100000, p 160008328230287571100000, p 157653439105666327500000, p 155295642221264107300000,
  p 152935023359716110400000, p 150571668308554173200000, p 148205662857195180000000, p 145837092793884995700000,
  p 143466043902691484800000, p 141092601960510894100000, p 138716852733991022100000, p 136338881976594088500000,
  p 133958775425555113100000, p 131576618798846773500000, p 129192497792252926300000, p 126806498076310534000000,
  p 124418705293343287000000, p 122029205054490172400000, p 119638082936691242100000, p 117245424479724800400000,
  p 114851315183253630300000, p 112455840503820060100000, p 110059085851901472700000, p 107661136588966535000000,
  p 105262078024488897700000, p 102861995413020148200000, p 100460973951235521800000, p 98059098775017493460000,
  p 95656454956489020280000, p 93253127501103313140000, p 90849201344738852240000, p 88444761350748066870000,
  p 86039892307065307400000, p 83634678923318273240000, p 81229205827895408550000, p 78823557565069703630000,
  p 76417818592135642260000, p 74012073276465741850000, p 71606405892711143430000, p 69200900619898999190000,
  p 66795641538537530650000, p 64390712627836446040000, p 61986197762795261130000, p 59582180711386094770000,
  p 57178745131736044280000, p 54775974569266592530000, p 52373952453890071240000, p 49972762097214757130000,
  p 47572486689704275820000, p 45173209297896752000000, p 42775012861631847150000, p 40377980191232450560000,
  p 37982193964752601510000, p 35587736725197594920000, p 33194690877787522790000, p 30803138687170258010000,
  p 28413162274694685890000, p 26024843615691758870000, p 23638264536712362760000, p 21253506712824566760000,
  p 18870651664919774030000, p 16489780756975243390000, p 14110975193376962050000, p 11734316016256782390000,
  p 9359884102752299179000, p 6987760162412990763000, p 4618024734506339166000, p 2250758185332994009000,
  m 113959294346099729500, m 2476047691976475657000, m 4835427175867579754000, m 7192018097732475792000,
  m 9545740995355304581000, m 11896516595163442310000, m 14244265814796302460000, m 16588909765715261150000,
  m 18930369755753108560000, m 21268567291653560460000, m 23603424081652035410000, m 25934862037995350860000,
  m 28262803279451942460000, m 30587170133862141430000, m 32907885140622230770000, m 35224871053192391240000,
  m 37538050841559727500000, m 39847347694748209680000, m 42152685023266429160000, m 44453986461545955770000,
  m 46751175870418719370000, m 49044177339533560990000, m 51332915189761799600000, m 53617313975643266800000,
  m 55897298487769159530000, m 58172793755151001500000, m 60443725047659359490000, m 62710017878319946350000,
  m 64971598005703344900000, m 67228391436303049540000, m 69480324426797444060000, m 71727323486433223510000,
  m 73969315379314429690000, m 76206227126684452720000, m 78437986009247633160000, m 80664519569427980420000,
  m 82885755613618038410000, m 85101622214463313130000, m 87312047713086906420000, m 89516960721301613620000,
  m 91716290123858857100000, m 93909965080632282950000, m 96097915028820005960000, m 98280069685103323960000,
  m 100456359047847404300000, m 102626713399240048600000, m 104791063307418830100000, m 106949339628634157900000,
  m 109101473509350433700000, m 111247396388336271900000, m 113387039998789088300000, m 115520336370399096100000,
  m 117647217831395330500000, m 119767617010659260600000, m 121881466839695177600000, m 123988700554694122500000,
  m 126089251698577634800000, m 128183054122934299700000, m 130270041990065136500000, m 132350149774941301500000,
  m 134423312267148198400000, m 136489464572869459600000, m 138548542116804981100000, m 140600480644081097200000,
  m 142645216222188808600000, m 144682685242866147200000, m 146712824423963518700000, m 148735570811343848300000,
  m 150750861780723528900000, m 152758635039496862200000, m 154758828628595167400000, m 156751380924280919000000,
  m 158736230639956656500000, m 160713316827931231500000, m 162682578881223431900000, m 164643956535302641300000,
  m 166597389869820418800000, m 168542819310369182800000, m 170480185630182104600000, m 172409429951823136000000,
  m 174330493748900102500000, m 176243318847726297500000, m 178147847428957627700000, m 180044022029291530500000,
  m 181931785543033971900000, m 183811081223744668500000, m 185681852685865342700000, m 187544043906245276400000,
  m 189397599225765744000000, m 191242463350878413900000, m 193078581355132664200000, m 194905898680734150200000,
  m 196724361140042711500000, m 198533914917055722700000, m 200334506568923212000000, m 202126083027398632000000,
  m 203908591600281932800000, m 205681979972886975600000, m 207446196209443866800000, m 209201188754520292500000,
  m 210946906434397724200000, m 212683298458474104400000, m 214410314420620130200000, m 216127904300509622900000,
  m 217836018464982478900000, m 219534607669350672600000, m 221223623058686830400000, m 222903016169139368100000,
  m 224572738929192957200000, m 226232743660908770900000, m 227882983081213275200000, m 229523410303071308500000,
  m 231153978836721665700000, m 232774642590899942400000, m 234385355873963882900000, m 235986073395105138500000,
  m 237576750265483126100000, m 239157341999346689900000, m 240727804515176768700000, m 242288094136779218000000,
  m 243838167594359850200000, m 245377982025620129400000, m 246907494976803833500000, m 248426664403722736000000,
  m 249935448672809908600000, m 251433806562114477100000, m 252921697262285913500000, m 254399080377574863800000,
  m 255865915926780035700000, m 257322164344203976900000, m 258767786480567545500000, m 260202743603948774900000,
  m 261626997400672841300000, m 263040509976182081400000, m 264443243855927532100000, m 265835161986210434000000,
  m 267216227735006929600000, m 268586404892810976600000, m 269945657673427875000000, m 271293950714749255300000,
  m 272631249079565850400000, m 273957518256275479700000, m 275272724159649092000000, m 276576833131576154700000,
  m 277869811941726613300000, m 279151627788284571100000, m 280422248298612796600000, m 281681641529900046600000,
  m 282929775969832512100000, m 284166620537208724500000, m 285392144582546491000000, m 286606317888698830400000,
  m 287809110671427570200000, m 289000493579956452000000, m 290180437697545271400000, m 291348914542005686500000,
  m 292505896066229387500000, m 293651354658677776200000, m 294785263143880807900000, m 295907594782907805800000,
  m 297018323273804123400000, m 298117422752050792300000, m 299204867790977006800000, m 300280633402159327000000,
  m 301344695035826520200000, m 302397028581228731400000, m 303437610366980904400000, m 304466417161439325500000,
  m 305483426172990075100000, m 306488615050376619800000, m 307481961883013037900000, m 308463445201222381800000,
  m 309433043976536079900000, m 310390737621924763700000, m 311336505992023510600000, m 312270329383362399200000,
  m 313192188534558522300000, m 314102064626492819300000, m 314999939282490433900000, m 315885794568465834400000,
  m 316759612993053405900000, m 317621377507739776700000, m 318471071506959500100000, m 319308678828188782600000,
  m 320134183752008205800000, m 320947571002175042300000, m 321748825745656053000000, m 322537933592646135000000,
  m 323314880596593475800000, m 324079653254187626300000, m 324832238505326866900000, m 325572623733100914000000,
  m 326300796763724350400000, m 327016745866468916800000, m 327720459753587563000000, m 328411927580210527800000,
  m 329091138944220004800000, m 329758083886145896300000, m 330412752888989034400000, m 331055136878075464200000,
  m 331685227220887687500000, m 332303015726849448900000, m 332908494647137409700000, m 333501656674451405800000,
  m 334082494942768495900000, m 334651003027102269100000, m 335207174943226698200000, m 335751005147385194700000,
  m 336282488536003402800000, m 336801620445367029200000, m 337308396651286770500000, m 337802813368766926700000,
  m 338284867251625008500000, m 338754555392141323900000, m 339211875320641613900000, m 339656825005104354800000,
  m 340089402850748815400000, m 340509607699576494100000, m 340917438829938901200000]

/-- src/mid_qual_coeffs.h:15741-16231 -/
def row32 : List ℤ := [
  m 341312895956068099500000, m 341695979227586428400000, m 342066689229022515500000, m 342425026979296823300000,
  m 342770993931190931600000, m 343104591970817092100000, m 343425823417057966600000, m 343734691020995903100000,
  m 344031197965331912000000, m 344315347863787565700000, m 344587144760490960700000, m 344846593129343218700000,
  m 345093697873385854100000, m 345328464324139953100000, m 345550898240930281800000, m 345761005810208581800000,
  m 345958793644847429100000, m 346144268783425094100000, m 346317438689503626100000, m 346478311250880374000000,
  m 346626894778832297300000, m 346763198007350303000000, m 346887230092343711600000, m 346999000610848627500000,
  m 347098519560217931000000, m 347185797357283515700000, m 347260844837525789600000, m 347323673254212492900000,
  m 347374294277533342800000, m 347412719993714564700000, m 347438962904127190700000, m 347453035924371505000000,
  m 347454952383358995700000, m 347444726022373977400000, m 347422370994118680900000, m 347387901861754167400000,
  m 347341333597924275600000, m 347282681583756149900000, m 347211961607866027400000, m 347129189865334232500000,
  m 347034382956680877500000, m 346927557886815432800000, m 346808732063985268200000, m 346677923298700015500000,
  m 346535149802655281000000, m 346380430187628331700000, m 346213783464377792500000, m 346035229041514666400000,
  m 345844786724370807200000, m 345642476713849556400000, m 345428319605270309300000, m 345202336387188794300000,
  m 344964548440215943300000, m 344714977535820336100000, m 344453645835114490300000, m 344180575887635296300000,
  m 343895790630107701900000, m 343599313385194572800000, m 343291167860242487400000, m 342971378146003245900000,
  m 342639968715356246100000, m 342296964422006194300000, m 341942390499179514700000, m 341576272558300755200000,
  m 341198636587665036400000, m 340809508951088490700000, m 340408916386557075200000, m 339996886004856303200000,
  m 339573445288196258800000, m 339138622088815903200000, m 338692444627582177700000, m 338234941492583033700000,
  m 337766141637690269300000, m 337286074381135266500000, m 336794769404054317700000, m 336292256749031294800000,
  m 335778566818627742500000, m 335253730373906086400000, m 334717778532926495100000, m 334170742769258433200000,
  m 333612654910458224700000, m 333043547136541412000000, m 332463451978457175200000, m 331872402316534019900000,
  m 331270431378925030900000, m 330657572740044941000000, m 330033860318987033000000, m 329399328377935163100000,
  m 328754011520571935000000, m 328097944690460040600000, m 327431163169430647400000, m 326753702575953192300000,
  m 326065598863491460100000, m 325366888318860258000000, m 324657607560566749200000, m 323937793537134222000000,
  m 323207483525428948900000, m 322466715128971162400000, m 321715526276238495500000, m 320953955218952833700000,
  m 320182040530366679200000, m 319399821103542034300000, m 318607336149601746000000, m 317804625195992830800000,
  m 316991728084734512300000, m 316168684970644358500000, m 315335536319576018900000, m 314492322906634465800000,
  m 313639085814376326500000, m 312775866431025124500000, m 311902706448658221700000, m 311019647861376902700000,
  m 310126732963501936700000, m 309224004347724470500000, m 308311504903266680300000, m 307389277814038030800000,
  m 306457366556762479100000, m 305515814899120640100000, m 304564666897876609800000, m 303603966896981859300000,
  m 302633759525692300000000, m 301654089696671960400000, m 300665002604073188800000, m 299666543721631981700000,
  m 298658758800735176000000, m 297641693868503742600000, m 296615395225838512000000, m 295579909445481240900000,
  m 294535283370067982100000, m 293481564110153992600000, m 292418799042254581000000, m 291347035806874569600000,
  m 290266322306514501100000, m 289176706703685897700000, m 288078237418926954800000, m 286970963128771071000000,
  m 285854932763770130900000, m 284730195506462384800000, m 283596800789334853600000, m 282454798292824005500000,
  m 281304237943256043100000, m 280145169910812343800000, m 278977644607484817100000, m 277801712685011963100000,
  m 276617425032819809900000, m 275424832775965182400000, m 274223987273047311500000, m 273014940114132997100000,
  m 271797743118682799800000, m 270572448333444327800000, m 269339108030363034000000, m 268097774704479350800000,
  m 266848501071827669800000, m 265591340067311413400000, m 264326344842588190200000, m 263053568763959016000000,
  m 261773065410219642200000, m 260484888570536820000000, m 259189092242317138800000, m 257885730629045398300000,
  m 256574858138147645500000, m 255256529378843262100000, m 253930799159969838200000, m 252597722487830596900000,
  m 251257354564038621400000, m 249909750783311099500000, m 248554966731333933500000, m 247193058182561514300000,
  m 245824081098017525800000, m 244448091623140906200000, m 243065146085563233700000, m 241675300992923706600000,
  m 240278613030676208800000, m 238875139059869622900000, m 237464936114946601700000, m 236048061401540875400000,
  m 234624572294246479400000, m 233194526334405384700000, m 231757981227897813300000, m 230314994842894550900000,
  m 228865625207645310500000, m 227409930508237903100000, m 225947969086377222500000, m 224479799437128695300000,
  m 223005480206686884500000, m 221525070190142818900000, m 220038628329219312000000, m 218546213710029861100000,
  m 217047885560838984700000, m 215543703249788162100000, m 214033726282651290900000, m 212518014300588030900000,
  m 210996627077847653000000, m 209469624519550192700000, m 207937066659400979000000, m 206399013657403889200000,
  m 204855525797637515200000, m 203306663485947004700000, m 201752487247686455000000, m 200193057725453986800000,
  m 198628435676799714300000, m 197058681971953500800000, m 195483857591563503500000, m 193904023624391836400000,
  m 192319241265047097700000, m 190729571811710634800000, m 189135076663836138500000, m 187535817319877426200000,
  m 185931855374996764200000, m 184323252518796444800000, m 182710070533007891500000, m 181092371289217626200000,
  m 179470216746591094600000, m 177843668949561662700000, m 176212790025554361100000, m 174577642182708627200000,
  m 172938287707566379000000, m 171294788962795462000000, m 169647208384915101400000, m 167995608481964867400000,
  m 166340051831266990200000, m 164680601077112943900000, m 163017318928452957100000, m 161350268156653883300000,
  m 159679511593188358800000, m 158005112127323826500000, m 156327132703888374200000, m 154645636320939239300000,
  m 152960686027495633800000, m 151272344921264792500000, m 149580676146334493000000, m 147885742890903711800000,
  m 146187608385012332500000, m 144486335898237540800000, m 142781988737425647100000, m 141074630244426699900000,
  m 139364323793795435200000, m 137651132790529630700000, m 135935120667791031700000, m 134216350884648611000000,
  m 132494886923784478900000, m 130770792289237766600000, m 129044130504149838100000, m 127314965108475566600000,
  m 125583359656733777500000, m 123849377715757339100000, m 122113082862412137100000, m 120374538681352016800000,
  m 118633808762782141900000, m 116890956700161732800000, m 115146046088009939500000, m 113399140519632987700000,
  m 111650303584857275400000, m 109899598867841763500000, m 108147089944793292100000, m 106392840381749453500000,
  m 104636913732356791900000, m 102879373535617695300000, m 101120283313675912500000, m 99359706569606448170000,
  m 97597706785170436810000, m 95834347418610269240000, m 94069691902449840970000, m 92303803641259333960000,
  m 90536746009465670300000, m 88768582349141390340000, m 86999375967822506050000, m 85229190136288908790000,
  m 83458088086384025190000, m 81686133008840856290000, m 79913388051073959100000, m 78139916315011326940000,
  m 76365780854932273380000, m 74591044675271340160000, m 72815770728463526630000, m 71040021912799073810000,
  m 69263861070218685060000, m 67487350984214957890000, m 65710554377657718370000, m 63933533910624749400000,
  m 62156352178316531140000, m 60379071708874826220000, m 58601754961269657830000, m 56824464323186816270000,
  m 55047262108881802790000, m 53270210557077703810000, m 51493371828867937410000, m 49716808005585362330000,
  m 47940581086716110380000, m 46164752987817091560000, m 44389385538402762050000, m 42614540479873335850000,
  m 40840279463449901400000, m 39066664048077059550000, m 37293755698372724440000, m 35521615782558720280000,
  m 33750305570422935320000, m 31979886231244104660000, m 30210418831761614610000, m 28441964334150650070000,
  m 26674583593965324110000, m 24908337358126422440000, m 23143286262915111020000, m 21379490831934605480000,
  m 19617011474116563890000, m 17855908481738070800000, m 16096242028381277200000, m 14338072167001489440000,
  m 12581458827921239370000, m 10826461816830973200000, m 9073140812876971144000, m 7321555366654213098000,
  m 5571764898269951198000, m 3823828695409499071000, m 2077805911371170882000, m 333755563146210900500,
  p 1408263470494281391000, p 3148192450947390809000, p 4885972781656096202000, p 6621546010042845337000,
  p 8354853829393779218000, p 10085838080731369040000, p 11814440754742648990000, p 13540603993599198710000,
  p 15264270092849400450000, p 16985381503302873960000, p 18703880832827982020000, p 20419710848241728690000,
  p 22132814477129343610000, p 23843134809660371450000, p 25550615100434085680000, p 27255198770279792710000,
  p 28956829408048794440000, p 30655450772436295210000, p 32351006793757006380000, p 34043441575713243000000,
  p 35732699397192215840000, p 37418724714012718410000, p 39101462160689537220000, p 40780856552163797800000,
  p 42456852885566826090000, p 44129396341937477290000, p 45798432287932254680000, p 47463906277562696180000,
  p 49125764053887861390000, p 50783951550697887490000, p 52438414894225605650000, p 54089100404812675170000,
  p 55735954598567281180000, p 57378924189048639200000, p 59017956088907047470000, p 60652997411510074980000,
  p 62283995472621313050000, p 63910897791972116080000, p 65533652094901850340000, p 67152206313987537990000,
  p 68766508590590091970000, p 70376507276485294880000, p 71982150935427177840000, p 73583388344704907750000,
  p 75180168496726955700000, p 76772440600558888710000, p 78360154083453856570000, p 79943258592406185850000,
  p 81521703995662567960000, p 83095440384222066400000, p 84664418073362415940000, p 86228587604117559780000,
  p 87787899744768007430000, p 89342305492299642250000, p 90891756073889213960000, p 92436202948348143590000,
  p 93975597807553412830000, p 95509892577905572020000, p 97039039421740330700000, p 98562990738731284870000,
  p 100081699167317242000000, p 101595117586083182800000, p 103103199115130232400000, p 104605897117489513400000,
  p 106103165200437243500000, p 107594957216870058300000, p 109081227266668938900000, p 110561929697985806400000,
  p 112037019108603166300000, p 113506450347233782300000, p 114970178514809019500000, p 116428158965792763100000,
  p 117880347309449933600000, p 119326699411105544700000, p 120767171393426257000000, p 122201719637657005400000,
  p 123630300784849102000000, p 125052871737109508100000, p 126469389658801791500000, p 127879811977760107600000,
  p 129284096386469732800000, p 130682200843273619000000, p 132074083573534333200000, p 133459703070787106300000,
  p 134839018097912506200000, p 136211987688266610200000, p 137578571146801121600000, p 138938728051203407700000,
  p 140292418252994092400000, p 141639601878610282400000, p 142980239330529911900000, p 144314291288302981700000,
  p 145641718709633565500000, p 146962482831456748500000, p 148276545170936255200000, p 149583867526518403200000,
  p 150884411978969169100000, p 152178140892341324300000, p 153465016915006242500000, p 154745002980627107700000,
  p 156018062309124341000000, p 157284158407656614500000, p 158543255071566031200000, p 159795316385305606200000,
  p 161040306723391114400000, p 162278190751306914800000, p 163508933426404184500000, p 164732499998814142400000,
  p 165948856012320615100000, p 167157967305237237600000, p 168359800011257115700000, p 169554320560317937800000,
  p 170741495679434588100000, p 171921292393512786000000, p 173093678026183840600000, p 174258620200599018400000,
  p 175416086840210467100000, p 176566046169571980100000, p 177708466715096067900000, p 178843317305800566900000,
  p 179970567074085524100000, p 181090185456428794600000, p 182202142194126334500000, p 183306407334019700600000,
  p 184402951229156573600000, p 185491744539510776600000, p 186572758232644397700000, p 187645963584363650400000,
  p 188711332179389778500000, p 189768835911987161200000, p 190818446986586539700000, p 191860137918417432400000,
  p 192893881534104039300000, p 193919650972252039600000, p 194937419684044441800000, p 195947161433802848400000,
  p 196948850299548936800000, p 197942460673541166800000, p 198927967262824226800000, p 199905345089745032900000,
  p 200874569492454064100000, p 201835616125421496300000, p 202788460959916420500000, p 203733080284474105700000,
  p 204669450705375786600000, p 205597549147091857500000, p 206517352852712571900000, p 207428839384403434900000,
  p 208331986623790419500000, p 209226772772378008400000, p 210113176351956528600000, p 210991176204953541200000,
  p 211860751494826810800000, p 212721881706413987200000, p 213574546646270741900000, p 214418726443018009900000,
  p 215254401547656734400000, p 216081552733873069200000, p 216900161098347403700000, p 217710208061035306900000,
  p 218511675365436544600000, p 219304545078870629700000, p 220088799592719873300000, p 220864421622664331100000,
  p 221631394208921764700000, p 222389700716453422700000, p 223139324835173915700000, p 223880250580134256400000,
  p 224612462291715308500000, p 225335944635789142900000, p 226050682603872534000000, p 226756661513281241100000,
  p 227453867007259056100000, p 228142285055094300900000, p 228821901952240119300000]

/-- src/mid_qual_coeffs.h:16232-16722 -/
def row33 : List ℤ := [
  p 229492704320408884400000, p 230154679107648309100000, p 230807813588443307400000, p 231452095363746107700000,
  p 232087512361049165500000, p 232714052834426688600000, p 233331705364547457300000, p 233940458858706456400000,
  p 234540302550824441600000, p 235131226001438642000000, p 235713219097690617400000, p 236286272053295954800000,
  p 236850375408496102500000, p 237405520030015571700000, p 237951697110994878000000, p 238488898170908901300000,
  p 239017115055488308400000, p 239536339936616661900000, p 240046565312222406500000, p 240547784006152695500000,
  p 241039989168048246200000, p 241523174273194885700000, p 241997333122364851100000, p 242462459841657194400000,
  p 242918548882315528600000, p 243365595020534199000000, p 243803593357266678100000, p 244232539318008209800000,
  p 244652428652566392300000, p 245063257434844934000000, p 245465022062574364700000, p 245857719257068876300000,
  p 246241346062961831800000, p 246615899847912162800000, p 246981378302325892700000, p 247337779439051584400000,
  p 247685101593061638400000, p 248023343421138850600000, p 248352503901533641600000, p 248672582333619497100000,
  p 248983578337540548100000, p 249285491853839472800000, p 249578323143079489200000, p 249862072785457024200000,
  p 250136741680400884200000, p 250402331046155704000000, p 250658842419368920400000, p 250906277654650694800000,
  p 251144638924134106000000, p 251373928717017400300000, p 251594149839102609400000, p 251805305412318555700000,
  p 252007398874232364500000, p 252200433977554309500000, p 252384414789632032100000, p 252559345691927576600000,
  p 252725231379493829000000, p 252882076860431819500000, p 253029887455340327300000, p 253168668796762883500000,
  p 253298426828606746700000, p 253419167805568168000000, p 253530898292544698700000, p 253633625164024351100000,
  p 253727355603481697700000, p 253812097102752178300000, p 253887857461399955800000, p 253954644786078779100000,
  p 254012467489875281900000, p 254061334291648378000000, p 254101254215357056300000, p 254132236589377875600000,
  p 254154291045809882000000, p 254167427519774702900000, p 254171656248703033100000, p 254166987771612556400000,
  p 254153432928375133100000, p 254131002858973796500000, p 254099709002755900100000, p 254059563097664255600000,
  p 254010577179470114100000, p 253952763580994329700000, p 253886134931310958300000, p 253810704154953676500000,
  p 253726484471101599100000, p 253633489392761032600000, p 253531732725940505300000, p 253421228568806607400000,
  p 253301991310842379400000, p 253174035631987810600000, p 253037376501776055200000, p 252892029178454795200000,
  p 252738009208105162900000, p 252575332423746895300000, p 252404014944435464200000, p 252224073174352159900000,
  p 252035523801880838700000, p 251838383798679845600000, p 251632670418743475400000, p 251418401197452752600000,
  p 251195593950621768400000, p 250964266773529541300000, p 250724438039948518400000, p 250476126401161366600000,
  p 250219350784966650400000, p 249954130394683426200000, p 249680484708140711700000, p 249398433476658118900000,
  p 249107996724023885100000, p 248809194745460110300000, p 248502048106577532500000, p 248186577642326886800000,
  p 247862804455941971200000, p 247530749917866720100000, p 247190435664683850100000, p 246841883598033151000000,
  p 246485115883511346400000, p 246120154949581548600000, p 245747023486460975900000, p 245365744445002597500000,
  p 244976341035577267500000, p 244578836726937805900000, p 244173255245079827600000, p 243759620572098369500000,
  p 243337956945025924500000, p 242908288854676139300000, p 242470641044471846600000, p 242025038509265127300000,
  p 241571506494153823200000, p 241110070493290648700000, p 240640756248678317200000, p 240163589748965372200000,
  p 239678597228229820200000, p 239185805164760705100000, p 238685240279821249800000, p 238176929536419290000000,
  p 237660900138063314300000, p 237137179527506633400000, p 236605795385493147900000, p 236066775629495173600000,
  p 235520148412437770300000, p 234965942121419870200000, p 234404185376438443500000, p 233834907029080950600000,
  p 233258136161241158500000, p 232673902083810698800000, p 232082234335357154000000, p 231483162680821714200000,
  p 230876717110183575100000, p 230262927837134609500000, p 229641825297736095100000, p 229013440149081079700000,
  p 228377803267943194900000, p 227734945749417418100000, p 227084898905558966000000, p 226427694264020478800000,
  p 225763363566669852400000, p 225091938768212976800000, p 224413452034812895600000, p 223727935742685168300000,
  p 223035422476716108500000, p 222335945029048822000000, p 221629536397671629600000, p 220916229785016925400000,
  p 220196058596524636200000, p 219469056439226416100000, p 218735257120315014700000, p 217994694645699441800000,
  p 217247403218570053300000, p 216493417237951493600000, p 215732771297244714800000, p 214965500182773305100000,
  p 214191638872322716600000, p 213411222533666184000000, p 212624286523096362000000, p 211830866383951326100000,
  p 211030997845122194600000, p 210224716819573003500000, p 209412059402846540200000, p 208593061871571315700000,
  p 207767760681952680600000, p 206936192468269768400000, p 206098394041373523000000, p 205254402387156916800000,
  p 204404254665044575900000, p 203547988206472023300000, p 202685640513348416300000, p 201817249256529556100000,
  p 200942852274287481800000, p 200062487570753692100000, p 199176193314392724200000, p 198284007836448789500000,
  p 197385969629377123900000, p 196482117345316237400000, p 195572489794504031100000, p 194657125943724812800000,
  p 193736064914743464900000, p 192809345982727551300000, p 191877008574674546000000, p 190939092267842938700000,
  p 189995636788155611800000, p 189046682008624141700000, p 188092267947764888300000, p 187132434767995324300000,
  p 186167222774047793100000, p 185196672411368007000000, p 184220824264523058700000, p 183239719055582680100000,
  p 182253397642521671000000, p 181261901017614872900000, p 180265270305812248200000, p 179263546763129707200000,
  p 178256771775038065300000, p 177244986854829800500000, p 176228233642000909000000, p 175206553900635904700000,
  p 174179989517753570600000, p 173148582501705727600000, p 172112374980531985100000, p 171071409200309828900000,
  p 170025727523546695300000, p 168975372427515368800000, p 167920386502622311200000, p 166860812450769622600000,
  p 165796693083696428700000, p 164728071321336747800000, p 163654990190179364600000, p 162577492821600218500000,
  p 161495622450217939900000, p 160409422412245863000000, p 159318936143820972000000, p 158224207179355995500000,
  p 157125279149875860300000, p 156022195781365503100000, p 154915000893093992400000, p 153803738395958680100000,
  p 152688452290826562400000, p 151569186666855392600000, p 150445985699832954300000, p 149318893650516091100000,
  p 148187954862949108600000, p 147053213762797871000000, p 145914714855689778800000, p 144772502725524528200000,
  p 143626622032810727500000, p 142477117513001836700000, p 141324033974795921900000, p 140167416298492655000000,
  p 139007309434304886000000, p 137843758400666338500000, p 136676808282590886800000, p 135506504229966807800000,
  p 134332891455891202500000, p 133156015235001869300000, p 131975920901784566800000, p 130792653848903721400000,
  p 129606259525534003400000, p 128416783435667073400000, p 127224271136443782200000, p 126028768236484986300000,
  p 124830320394198675700000, p 123628973316115397400000, p 122424772755207444400000, p 121217764509222897600000,
  p 120007994418994812400000, p 118795508366775775900000, p 117580352274572057500000, p 116362572102451792300000,
  p 115142213846884376700000, p 113919323539073385600000, p 112693947243270515900000, p 111466131055113518100000,
  p 110235921099967814600000, p 109003363531227364500000, p 107768504528683983600000, p 106531390296844743300000,
  p 105292067063248327100000, p 104050581076839662000000, p 102806978606274877200000, p 101561305938271961600000,
  p 100313609375959401400000, p 99063935237200004100000, p 97812329852943195510000, p 96558839565577317120000,
  p 95303510727259128050000, p 94046389698270127470000, p 92787522845374245750000, p 91526956540152171170000,
  p 90264737157366779600000, p 89000911073310227610000, p 87735524664174857430000, p 86468624304393025870000,
  p 85200256365007846680000, p 83930467212044312260000, p 82659303204857592960000, p 81386810694509037810000,
  p 80113036022144668790000, p 78838025517349863410000, p 77561825496532321380000, p 76284482261308690430000,
  p 75006042096865198460000, p 73726551270348900800000, p 72446056029265134470000, p 71164602599830330570000,
  p 69882237185401926820000, p 68599005964852985930000, p 67314955090949537930000, p 66030130688788312660000,
  p 64744578854165110280000, p 63458345651990781990000, p 62171477114708254130000, p 60884019240684446330000,
  p 59596017992633184240000, p 58307519296041222610000, p 57018569037570097330000, p 55729213063488518250000,
  p 54439497178108332980000, p 53149467142196495940000, p 51859168671420810360000, p 50568647434780762490000,
  p 49277949053060880050000, p 47987119097255996400000, p 46696203087029501430000, p 45405246489173130780000,
  p 44114294716044366240000, p 42823393124035305050000, p 41532587012044348250000, p 40241921619925466320000,
  p 38951442126967978250000, p 37661193650384076060000, p 36371221243753977150000, p 35081569895549288430000,
  p 33792284527601692710000, p 32503409993576364930000, p 31214991077507689380000, p 29927072492265432070000,
  p 28639698878071806320000, p 27352914801019507270000, p 26066764751566581780000, p 24781293143063648200000,
  p 23496544310285476630000, p 22212562507939614700000, p 20929391909207281740000, p 19647076604288857450000,
  p 18365660598926625870000, p 17085187812962969480000, p 15805702078884760060000, p 14527247140391439250000,
  p 13249866650936971660000, p 11973604172304478180000, p 10698503173186069960000, p 9424607027739795737000,
  p 8151959014179596208000, p 6880602313370171242000, p 5610580007399637890000, p 4341935078184899107000,
  p 3074710406085300690000, p 1808948768475808304000, p 544692838398909650800, m 718014816836207557000,
  m 1979131737048930197000, m 3238615570522119734000, m 4496424075386408844000, m 5752515120998873115000,
  m 7006846689258187335000, m 8259376875987296666000, m 9510063892264602613000, m 10758866065752631610000,
  m 12005741842048063240000, m 13250649785998789370000, m 14493548583014926380000, m 15734397040401531660000,
  m 16973154088657643870000, m 18209778782769834390000, m 19444230303526519520000, m 20676467958796472040000,
  m 21906451184818801530000, m 23134139547469126360000, m 24359492743549642140000, m 25582470602045505300000,
  m 26803033085375778880000, m 28021140290664073340000, m 29236752450976732590000, m 30449829936554406350000,
  m 31660333256063761530000, m 32868223057816281340000, m 34073460130978001140000, m 35276005406816188460000,
  m 36475819959869383500000, m 37672865009166686110000, m 38867101919440307180000, m 40058492202275663190000,
  m 41246997517325486140000, m 42432579673472684580000, m 43615200629990101120000, m 44794822497719460350000,
  m 45971407540216801300000, m 47144918174891797730000, m 48315316974166363700000, m 49482566666599079660000,
  m 50646630138004637930000, m 51807470432590005260000, m 52965050754057246230000, m 54119334466714017270000,
  m 55270285096561929460000, m 56417866332405192730000, m 57562042026926761010000, m 58702776197757464020000,
  m 59840033028563556900000, m 60973776870100930630000, m 62103972241262837630000, m 63230583830145743740000,
  m 64353576495081502280000, m 65472915265660678260000, m 66588565343789774270000, m 67700492104674344310000,
  m 68808661097847413790000, m 69913038048190540470000, m 71013588856894878400000, m 72110279602480544730000,
  m 73203076541768417300000, m 74291946110845088080000, m 75376854926047440740000, m 76457769784912438830000,
  m 77534657667121032240000, m 78607485735458665380000, m 79676221336743232350000, m 80740832002744968220000,
  m 81801285451124487210000, m 82857549586337061540000, m 83909592500530516960000, m 84957382474457792190000,
  m 86000887978357582160000, m 87040077672839995620000, m 88074920409751057310000, m 89105385233054625140000,
  m 90131441379682445280000, m 91153058280376374050000, m 92170205560548041750000, m 93182853041102981860000,
  m 94190970739261846460000, m 95194528869392761710000, m 96193497843815263850000, m 97187848273591224620000,
  m 98177550969348357050000, m 99162576942033220960000, m 100142897403704357500000, m 101118483768317238100000,
  m 102089307652455748200000, m 103055340876110021500000, m 104016555463414889700000, m 104972923643379144100000,
  m 105924417850629555800000, m 106871010726124714400000, m 107812675117859989700000, m 108749384081588092800000,
  m 109681110881507042400000, m 110607828990941383500000, m 111529512093036401000000, m 112446134081420324100000,
  m 113357669060871964200000, m 114264091347966086100000, m 115165375471734730700000, m 116061496174297570200000,
  m 116952428411485175500000, m 117838147353474154900000, m 118718628385393833400000, m 119593847107923241300000,
  m 120463779337901953800000, m 121328401108910450900000, m 122187688671840149900000, m 123041618495490557600000,
  m 123890167267101002800000, m 124733311892921266100000, m 125571029498758708800000, m 126403297430510290800000,
  m 127230093254693016500000, m 128051394758957819800000, m 128867179952612474500000, m 129677427067118484200000,
  m 130482114556580518600000, m 131281221098242787800000, m 132074725592963164500000, m 132862607165673345900000,
  m 133644845165853057200000, m 134421419167974845100000, m 135192308971942800500000, m 135957494603536593400000,
  m 136716956314835721200000, m 137470674584625162900000, m 138218630118827921600000]

/-- src/mid_qual_coeffs.h:16723-17213 -/
def row34 : List ℤ := [
  m 138960803850880212600000, m 139697176942134271800000, m 140427730782254170700000, m 141152446989563140400000,
  m 141871307411434535200000, m 142584294124637530200000, m 143291389435683469900000, m 143992575881175685800000,
  m 144687836228135868700000, m 145377153474321604000000, m 146060510848552852300000, m 146737891811010755600000,
  m 147409280053529667000000, m 148074659499898071000000, m 148734014306129607200000, m 149387328860739080700000,
  m 150034587784997358200000, m 150675775933197892100000, m 151310878392895000800000, m 151939880485136565900000,
  m 152562767764703017200000, m 153179526020321300100000, m 153790141274872473100000, m 154394599785601853500000,
  m 154992888044310948200000, m 155584992777534503900000, m 156170900946736422200000, m 156750599748454989000000,
  m 157324076614474638700000, m 157891319211985955700000, m 158452315443707457300000, m 159007053448036595900000,
  m 159555521599169807200000, m 160097708507214400100000, m 160633603018305758800000, m 161163194214704541800000,
  m 161686471414880219000000, m 162203424173606943000000, m 162714042282030525400000, m 163218315767730588600000,
  m 163716234894786973400000, m 164207790163823784600000, m 164692972312050238100000, m 165171772313289175800000,
  m 165644181378008561400000, m 166110190953331563900000, m 166569792723039565400000, m 167022978607578504800000,
  m 167469740764045026000000, m 167910071586162274000000, m 168343963704263441700000, m 168771409985250109400000,
  m 169192403532544946600000, m 169606937686052030200000, m 170015006022080841900000, m 170416602353286338900000,
  m 170811720728595797400000, m 171200355433112535400000, m 171582500988026981200000, m 171958152150522970800000,
  m 172327303913650625700000, m 172689951506223217800000, m 173046090392683460500000, m 173395716272966600600000,
  m 173738825082363131700000, m 174075412991364349200000, m 174405476405499449400000, m 174729011965174822900000,
  m 175046016545494348900000, m 175356487256072234300000, m 175660421440847669300000, m 175957816677880618400000,
  m 176248670779144547300000, m 176532981790307252400000, m 176810747990512013700000, m 177081967892141374500000,
  m 177346640240575690100000, m 177604764013949588100000, m 177856338422891001400000, m 178101362910258601600000,
  m 178339837150869067600000, m 178571761051219503100000, m 178797134749193454800000, m 179015958613773409500000,
  m 179228233244729410800000, m 179433959472309357300000, m 179633138356925803100000, m 179825771188818256300000,
  m 180011859487726752800000, m 180191405002546375200000, m 180364409710973748700000, m 180530875819155380000000,
  m 180690805761316453800000, m 180844202199388165400000, m 180991068022629957300000, m 181131406347238312300000,
  m 181265220515947848200000, m 181392514097633767700000, m 181513290886896311700000, m 181627554903641822500000,
  m 181735310392656625900000, m 181836561823175491600000, m 181931313888438329700000, m 182019571505239813500000,
  m 182101339813477619300000, m 182176624175686382200000, m 182245430176565200800000, m 182307763622503027500000,
  m 182363630541092051900000, m 182413037180633195800000, m 182455990009639386000000, m 182492495716325817000000,
  m 182522561208096499500000, m 182546193611024439900000, m 182563400269319866100000, m 182574188744797369700000,
  m 182578566816331662900000, m 182576542479309406500000, m 182568123945070628400000, m 182553319640345047500000,
  m 182532138206683761500000, m 182504588499878277400000, m 182470679589378430400000, m 182430420757699515100000,
  m 182383821499826191300000, m 182330891522604733900000, m 182271640744132058700000, m 182206079293138105800000,
  m 182134217508360526600000, m 182056065937911130000000, m 181971635338639239100000, m 181880936675483988400000,
  m 181783981120826405000000, m 181680780053826283100000, m 181571345059760658500000, m 181455687929351060800000,
  m 181333820658086076700000, m 181205755445536839200000, m 181071504694665604900000, m 180931081011130075100000,
  m 180784497202578936000000, m 180631766277941841700000, m 180472901446715873300000, m 180307916118238337900000,
  m 180136823900964906400000, m 179959638601728940900000, m 179776374225003939200000, m 179587044972157278200000,
  m 179391665240694850600000, m 179190249623503803500000, m 178982812908087417100000, m 178769370075794237100000,
  m 178549936301040755700000, m 178324526950529105600000, m 178093157582458547100000, m 177855843945731018500000,
  m 177612601979150182100000, m 177363447810617596700000, m 177108397756319674300000, m 176847468319908565200000,
  m 176580676191683829600000, m 176308038247759201000000, m 176029571549231219900000, m 175745293341339085600000,
  m 175455221052619466500000, m 175159372294054073000000, m 174857764858219128300000, m 174550416718414916400000,
  m 174237346027808259800000, m 173918571118556619300000, m 173594110500927478100000, m 173263982862422360900000,
  m 172928207066884643500000, m 172586802153606468400000, m 172239787336435118600000, m 171887182002864483100000,
  m 171529005713128880600000, m 171165278199293983400000, m 170796019364331992400000, m 170421249281201611000000,
  m 170040988191923572200000, m 169655256506642479200000, m 169264074802691463700000, m 168867463823649905900000,
  m 168465444478399365500000, m 168058037840165391000000, m 167645265145565969600000, m 167227147793651872600000,
  m 166803707344935210400000, m 166374965520424276000000, m 165940944200649036400000, m 165501665424679631800000,
  m 165057151389142706200000, m 164607424447238740400000, m 164152507107743095700000, m 163692422034013887200000,
  m 163227192042993487800000, m 162756840104194365900000, m 162281389338703055500000, m 161800863018159000600000,
  m 161315284563735242700000, m 160824677545126914000000, m 160329065679516041300000, m 159828472830547517300000,
  m 159322923007297997000000, m 158812440363233247500000, m 158297049195170837800000, m 157776773942237569800000,
  m 157251639184817531200000, m 156721669643500365300000, m 156186890178030353600000, m 155647325786241539800000,
  m 155103001602997894800000, m 154553942899125838600000, m 154000175080347331000000, m 153441723686202906500000,
  m 152878614388975088600000, m 152310872992614108200000, m 151738525431647413100000, m 151161597770094760700000,
  m 150580116200385019300000, m 149994107042253669500000, m 149403596741650769100000, m 148808611869647426300000,
  m 148209179121319614000000, m 147605325314658438100000, m 146997077389454357700000, m 146384462406180104900000,
  m 145767507544891059300000, m 145146240104095184700000, m 144520687499638224800000, m 143890877263585972400000,
  m 143256837043090546300000, m 142618594599265775000000, m 141976177806062337800000, m 141329614649125421500000,
  m 140678933224663870800000, m 140024161738316031400000, m 139365328504000794100000, m 138702461942781188000000,
  m 138035590581714204500000, m 137364743052711111600000, m 136689948091377926400000, m 136011234535868004000000,
  m 135328631325732078500000, m 134642167500752311900000, m 133951872199790058500000, m 133257774659627475700000,
  m 132559904213797535100000, m 131858290291423735600000, m 131152962416057974600000, m 130443950204503538400000,
  m 129731283365648499900000, m 129014991699301503300000, m 128295105094999357600000, m 127571653530853147800000,
  m 126844667072361792700000, m 126114175871223270800000, m 125380210164175120900000, m 124642800271795693600000,
  m 123901976597326707700000, m 123157769625494614300000, m 122410209921313014000000, m 121659328128901825400000,
  m 120905154970303024200000, m 120147721244280716400000, m 119387057825134519600000, m 118623195661513052700000,
  m 117856165775209888800000, m 117085999259976692600000, m 116312727280322520600000, m 115536381070326349000000,
  m 114756991932427171400000, m 113974591236232406900000, m 113189210417322973200000, m 112400880976042816100000,
  m 111609634476303481300000, m 110815502544388578600000, m 110018516867739176700000, m 109218709193757847800000,
  m 108416111328611680500000, m 107610755136008337800000, m 106802672536015266200000, m 105991895503843478100000,
  m 105178456068632229300000, m 104362386312265164500000, m 103543718368145765800000, m 102722484419996693300000,
  m 101898716700660223900000, m 101072447490879038900000, m 100243709118094941200000, m 99412533955248400320000,
  m 98578954419558376860000, m 97743002971321636890000, m 96904712112711428680000, m 96064114386557795900000,
  m 95221242375149154790000, m 94376128699021592660000, m 93528806015758520600000, m 92679307018774198610000,
  m 91827664436111423160000, m 90973911029243144980000, m 90118079591853974920000, m 89260202948641517090000,
  m 88400313954117173510000, m 87538445491390252050000, m 86674630470969557090000, m 85808901829566891130000,
  m 84941292528882124890000, m 84071835554407417250000, m 83200563914231814550000, m 82327510637828990590000,
  m 81452708774863377420000, m 80576191393997041510000, m 79697991581680161320000, m 78818142440961630490000,
  m 77936677090288615550000, m 77053628662320140670000, m 76169030302720126620000, m 75282915168970487610000,
  m 74395316429185230940000, m 73506267260908239370000, m 72615800849928400870000, m 71723950389098058530000,
  m 70830749077134235450000, m 69936230117437504760000, m 69040426716917026300000, m 68143372084784439360000,
  m 67245099431398686000000, m 66345641967074269530000, m 65445032900889580810000, m 64543305439537210270000,
  m 63640492786125362400000, m 62736628139012446860000, m 61831744690641371360000, m 60925875626356548380000,
  m 60019054123241122240000, m 59111313348957455450000, m 58202686460568208030000, m 57293206603380469510000,
  m 56382906909790311120000, m 55471820498111312150000, m 54559980471425536030000, m 53647419916423786370000,
  m 52734171902261726200000, m 51820269479395261950000, m 50905745678438444820000, m 49990633509022951100000,
  m 49074965958641123260000, m 48158775991509881920000, m 47242096547437328020000, m 46324960540672390740000,
  m 45407400858775752930000, m 44489450361496278810000, m 43571141879616203200000, m 42652508213852041820000,
  m 41733582133715948660000, m 40814396376380231040000, m 39894983645584914270000, m 38975376610496978000000,
  m 38055607904603792400000, m 37135710124607570730000, m 36215715829303084590000, m 35295657538477584920000,
  m 34375567731813481060000, m 33455478847774289060000, m 32535423282513348330000, m 31615433388785126840000,
  m 30695541474840039590000, m 29775779803343983590000, m 28856180590287854040000, m 27936776003913482900000,
  m 27017598163620298850000, m 26098679138895087690000, m 25180050948245086500000, m 24261745558114421900000,
  m 23343794881823367240000, m 22426230778511096450000, m 21509085052061937600000, m 20592389450054587920000,
  m 19676175662714869320000, m 18760475321852170140000, m 17845319999818865150000, m 16930741208475454770000,
  m 16016770398126688270000, m 15103438956513260840000, m 14190778207765804160000, m 13278819411362393760000,
  m 12367593761131355850000, m 11457132384205174790000, m 10547466340010755310000, m 9638626619261631142000,
  m 8730644142933770109000, m 7823549761265219694000, m 6917374252759404239000, m 6012148323172715587000,
  m 5107902604525509790000, m 4204667654117172963000, m 3302473953525395900000, m 2401351907631273461000,
  m 1501331843635360604000, m 602444010090775278000, p 295281424081348897100, p 1191814370550560616000,
  p 2087124822544718775000, p 2981182855800449203000, p 3873958629533237150000, p 4765422387370817619000,
  p 5655544458312672488000, p 6544295257674329934000, p 7431645288005860712000, p 8317565140049265089000,
  p 9202025493650286029000, p 10084997118689886240000, p 10966450876006709400000, p 11846357718317401800000,
  p 12724688691108773500000, p 13601414933568529970000, p 14476507679468392090000, p 15349938258079189810000,
  p 16221678095045123880000, p 17091698713295991500000, p 17959971733912023930000, p 18826468877007887300000,
  p 19691161962609683640000, p 20554022911531199610000, p 21415023746222657330000, p 22274136591654488140000,
  p 23131333676154367210000, p 23986587332260257040000, p 24839869997579424190000, p 25691154215613215660000,
  p 26540412636605829860000, p 27387618018378434080000, p 28232743227138958420000, p 29075761238316585910000,
  p 29916645137382642630000, p 30755368120648113080000, p 31591903496082585560000, p 32426224684118415040000,
  p 33258305218428838160000, p 34088118746742327630000, p 34915639031612599360000, p 35740839951206359930000,
  p 36563695500081926340000, p 37384179789963983350000, p 38202267050491479690000, p 39017931630000713380000,
  p 39831147996262839980000, p 40641890737250003680000, p 41450134561862708240000, p 42255854300691150500000,
  p 43059024906732108450000, p 43859621456121645010000, p 44657619148861320260000, p 45452993309542235130000,
  p 46245719388042478380000, p 47035772960256550710000, p 47823129728779530190000, p 48607765523605996440000,
  p 49389656302833440660000, p 50168778153331902760000, p 50945107291436681700000, p 51718620063624769220000,
  p 52489292947168935460000, p 53257102550812780330000, p 54022025615433255570000, p 54784039014679747740000,
  p 55543119755636552850000, p 56299244979446929560000, p 57052391961970552630000, p 57802538114395890590000,
  p 58549660983867118590000, p 59293738254114446410000, p 60034747746054109180000, p 60772667418399369510000,
  p 61507475368274060700000, p 62239149831793698820000, p 62967669184657267330000, p 63693011942743494390000,
  p 64415156762674915840000, p 65134082442401555430000, p 65849767921770564630000, p 66562192283070790280000,
  p 67271334751609190700000, p 67977174696245482840000, p 68679691629941765050000, p 69378865210302734390000,
  p 70074675240111377290000, p 70767101667839140980000, p 71456124588186448860000]

/-- src/mid_qual_coeffs.h:17214-17704 -/
def row35 : List ℤ := [
  p 72141724242580972730000, p 72823881019700760370000, p 73502575455961150680000, p 74177788236030894630000,
  p 74849500193307415230000, p 75517692310404942510000, p 76182345719636183810000, p 76843441703489630330000,
  p 77500961695083255000000, p 78154887278644624340000, p 78805200189950081650000, p 79451882316776330790000,
  p 80094915699353049900000, p 80734282530788684690000, p 81369965157504359750000, p 82001946079669158570000,
  p 82630207951605804900000, p 83254733582205207470000, p 83875505935342956240000, p 84492508130267913990000,
  p 85105723442005241420000, p 85715135301748078700000, p 86320727297224846060000, p 86922483173093310670000,
  p 87520386831299010240000, p 88114422331443041600000, p 88704573891143384560000, p 89290825886388622860000,
  p 89873162851871065370000, p 90451569481342513380000, p 91026030627935387790000, p 91596531304501379650000,
  p 92163056683920230920000, p 92725592099431554590000, p 93284123044929290370000, p 93838635175269699460000,
  p 94389114306568097170000, p 94935546416495382120000, p 95477917644549818720000, p 96016214292352631260000,
  p 96550422823906288030000, p 97080529865862895530000, p 97606522207792226820000, p 98128386802424948710000,
  p 98646110765907897180000, p 99159681378047968640000, p 99669086082535912840000, p 100174312487183651100000,
  p 100675348364150549500000, p 101172181650150934700000, p 101664800446672290500000, p 102153193020181865000000,
  p 102637347802312544400000, p 103117253390071019500000, p 103592898546010268700000, p 104064272198421109300000,
  p 104531363441494421500000, p 104994161535503917700000, p 105452655906949894100000, p 105906836148730358300000,
  p 106356692020277517300000, p 106802213447712980400000, p 107243390523971928100000, p 107680213508948164200000,
  p 108112672829607781300000, p 108540759080108748000000, p 108964463021921567200000, p 109383775583925553300000,
  p 109798687862512766500000, p 110209191121689331100000, p 110615276793152387500000, p 111016936476375892700000,
  p 111414161938690702300000, p 111806945115347047600000, p 112195278109583951900000, p 112579153192688170200000,
  p 112958562804036879600000, p 113333499551150100800000, p 113703956209731084300000, p 114069925723693768000000,
  p 114431401205194828800000, p 114788375934656925300000, p 115140843360774024000000, p 115488797100532310700000,
  p 115832230939203793600000, p 116171138830352036400000, p 116505514895813550400000, p 116835353425695558300000,
  p 117160648878340771400000, p 117481395880312711900000, p 117797589226354201900000, p 118109223879355691000000,
  p 118416294970302997300000, p 118718797798236298300000, p 119016727830185200000000, p 119310080701107290200000,
  p 119598852213825498400000, p 119883038338947241700000, p 120162635214785454100000, p 120437639147279277100000,
  p 120708046609893161000000, p 120973854243521509600000, p 121235058856389651800000, p 121491657423937330400000,
  p 121743647088708682700000, p 121991025160231609700000, p 122233789114884622000000, p 122471936595771046000000,
  p 122705465412575881300000, p 122934373541423432100000, p 123158659124727483500000, p 123378320471037995600000,
  p 123593356054872103300000, p 123803764516555606200000, p 124009544662043234700000, p 124210695462746180700000,
  p 124407216055341034000000, p 124599105741588097300000, p 124786363988128667200000, p 124968990426287601200000,
  p 125146984851863795600000, p 125320347224922750500000, p 125489077669572058500000, p 125653176473745106600000,
  p 125812644088966536100000, p 125967481130117838000000, p 126117688375202054000000, p 126263266765091591300000,
  p 126404217403282596300000, p 126540541555636779100000, p 126672240650116949600000, p 126799316276522038400000,
  p 126921770186214148600000, p 127039604291838967900000, p 127152820667043278900000, p 127261421546186236400000,
  p 127365409324042432000000, p 127464786555505282500000, p 127559555955279225800000, p 127649720397571861200000,
  p 127735282915776034600000, p 127816246702151976900000, p 127892615107496921200000, p 127964391640817239600000,
  p 128031579968989711600000, p 128094183916421789100000, p 128152207464701643200000, p 128205654752250189700000,
  p 128254530073960618500000, p 128298837880835891000000, p 128338582779623282500000, p 128373769532441470900000,
  p 128404403056401147300000, p 128430488423225599300000, p 128452030858860317100000, p 128469035743080593500000,
  p 128481508609096359200000, p 128489455143146366300000, p 128492881184093292700000, p 128491792723011636700000,
  p 128486195902767372500000, p 128476097017598959200000, p 128461502512689271900000, p 128442418983733600300000,
  p 128418853176503447600000, p 128390811986405585600000, p 128358302458035037500000, p 128321331784725053500000,
  p 128279907308090742200000, p 128234036517569993200000, p 128183727049957757000000, p 128128986688936667700000,
  p 128069823364602704100000, p 128006245152987625700000, p 127938260275573683900000, p 127865877098807818400000,
  p 127789104133607613000000, p 127707950034865191700000, p 127622423600945965300000, p 127532533773182769800000,
  p 127438289635364908400000, p 127339700413224863900000, p 127236775473917555900000, p 127129524325498460000000,
  p 127017956616395005600000, p 126902082134874665500000, p 126781910808509388000000, p 126657452703633928700000,
  p 126528718024801961100000, p 126395717114236006400000, p 126258460451275113500000, p 126116958651817633900000,
  p 125971222467758872500000, p 125821262786426977900000, p 125667090630011350300000, p 125508717154989614100000,
  p 125346153651551282800000, p 125179411543013699500000, p 125008502385238383600000, p 124833437866039761200000,
  p 124654229804593407600000, p 124470890150835182500000, p 124283430984864132600000, p 124091864516334010300000,
  p 123896203083846229100000, p 123696459154335472900000, p 123492645322455089400000, p 123284774309953890200000,
  p 123072858965054740800000, p 122856912261826563200000, p 122636947299550972400000, p 122412977302089698400000,
  p 122185015617245340700000, p 121953075716117379300000, p 121717171192458484100000, p 121477315762026242900000,
  p 121233523261926473800000, p 120985807649961999600000, p 120734183003969535500000, p 120478663521156578200000,
  p 120219263517439215300000, p 119955997426766301700000, p 119688879800452092600000, p 119417925306496990500000,
  p 119143148728907669500000, p 118864564967014109000000, p 118582189034787224100000, p 118296036060144677800000,
  p 118006121284262358800000, p 117712460060876046700000, p 117415067855586316200000, p 117113960245152342500000,
  p 116809152916790530300000, p 116500661667467939900000, p 116188502403189234100000, p 115872691138282460100000,
  p 115553243994686864400000, p 115230177201227642400000, p 114903507092897885600000, p 114573250110135011200000,
  p 114239422798087463000000, p 113902041805889880600000, p 113561123885926005600000, p 113216685893092412300000,
  p 112868744784064368200000, p 112517317616551190300000, p 112162421548550652100000, p 111804073837607850900000,
  p 111442291840060833400000, p 111077093010289730800000, p 110708494899968199300000, p 110336515157299219900000,
  p 109961171526263271800000, p 109582481845850121200000, p 109200464049302956000000, p 108815136163342476800000,
  p 108426516307408890100000, p 108034622692883546400000, p 107639473622321704200000, p 107241087488671823400000,
  p 106839482774505347900000, p 106434678051228084200000, p 106026691978306419500000, p 105615543302481885700000,
  p 105201250856984786600000, p 104783833560743666300000, p 104363310417602812900000, p 103939700515520843700000,
  p 103513023025784522500000, p 103083297202213213600000, p 102650542380355636100000, p 102214777976697556900000,
  p 101776023487855767000000, p 101334298489774620700000, p 100889622636927709400000, p 100442015661507001600000,
  p 99991497372612563130000, p 99538087655449435420000, p 99081806470510756360000, p 98622673852764541060000,
  p 98160709910846615320000, p 97695934826234873710000, p 97228368852440830620000, p 96758032314182387570000,
  p 96284945606571630310000, p 95809129194283015280000, p 95330603610742711700000, p 94849389457292126030000,
  p 94365507402372094030000, p 93878978180686662760000, p 93389822592384829610000, p 92898061502218767750000,
  p 92403715838723464580000, p 91906806593383187060000, p 91407354819791740040000, p 90905381632826737900000,
  p 90400908207811760190000, p 89893955779673750360000, p 89384545642114427850000, p 88872699146771766060000,
  p 88358437702372810370000, p 87841782773904304120000, p 87322755881761495040000, p 86801378600917568630000,
  p 86277672560067602780000, p 85751659440796971120000, p 85223360976733849360000, p 84692798952703700130000,
  p 84159995203880112370000, p 83624971614948989830000, p 83087750119247559020000, p 82548352697928693320000,
  p 82006801379111562500000, p 81463118237026305650000, p 80917325391174208170000, p 80369445005471710620000,
  p 79819499287399133820000, p 79267510487160191750000, p 78713500896824333490000, p 78157492849473557320000,
  p 77599508718359023510000, p 77039570916043179280000, p 76477701893545949620000, p 75913924139504643220000,
  p 75348260179307769820000, p 74780732574252466040000, p 74211363920689412210000, p 73640176849167708600000,
  p 73067194023580605370000, p 72492438140324188870000, p 71915931927430575480000, p 71337698143727261920000,
  p 70757759577973666690000, p 70176139048021442520000, p 69592859399946491260000, p 69007943507209669420000,
  p 68421414269801637260000, p 67833294613390038880000, p 67243607488463809280000, p 66652375869493242850000,
  p 66059622754063146690000, p 65465371162035402850000, p 64869644134696934450000, p 64272464733901749450000,
  p 63673856041232337350000, p 63073841157142702240000, p 62472443200108727770000, p 61869685305790373490000,
  p 61265590626176700100000, p 60660182328736146310000, p 60053483595579714570000, p 59445517622607168530000,
  p 58836307618660765920000, p 58225876804693411110000, p 57614248412909750240000, p 57001445685935814580000,
  p 56387491875966200710000, p 55772410243935001400000, p 55156224058658750610000, p 54538956596016875050000,
  p 53920631138095885970000, p 53301270972364016710000, p 52680899390823993230000, p 52059539689189413170000,
  p 51437215166034534810000, p 50813949121973224350000, p 50189764858825529670000, p 49564685678776522440000,
  p 48938734883556648000000, p 48311935773609247870000, p 47684311647254057100000, p 47055885799871653870000,
  p 46426681523076240280000, p 45796722103883130990000, p 45166030823896618000000, p 44534630958479681870000,
  p 43902545775932369750000, p 43269798536685582630000, p 42636412492467147730000, p 42002410885498167150000,
  p 41367816947672757940000, p 40732653899744019590000, p 40096944950509208650000, p 39460713296012551940000,
  p 38823982118720588910000, p 38186774586728210280000, p 37549113852941854090000, p 36911023054288160070000,
  p 36272525310894990380000, p 35633643725311203890000, p 34994401381690129980000, p 34354821345006442480000,
  p 33714926660248632390000, p 33074740351639480050000, p 32434285421827626580000, p 31793584851111651000000,
  p 31152661596650859200000, p 30511538591670180860000, p 29870238744686855470000, p 29228784938725568200000,
  p 28587200030529160930000, p 27945506849792860220000, p 27303728198386772190000, p 26661886849573041190000,
  p 26020005547245881610000, p 25378107005153069930000, p 24736213906126899780000, p 24094348901332131890000,
  p 23452534609486283310000, p 22810793616110863820000, p 22169148472767880820000, p 21527621696301883680000,
  p 20886235768082648570000, p 20245013133267141720000, p 19603976200032846140000, p 18963147338844590270000,
  p 18322548881697198840000, p 17682203121386997150000, p 17042132310754739770000, p 16402358661962125810000,
  p 15762904345753260770000, p 15123791490720653290000, p 14485042182570624220000, p 13846678463407753440000,
  p 13208722330993331370000, p 12571195738036456740000, p 11934120591472837150000, p 11297518751738380410000,
  p 10661412032066867030000, p 10025822197769040430000, p 9390770965521807415000, p 8756280002674018430000,
  p 8122370926533653768000, p 7489065303663868882000, p 6856384649195353557000, p 6224350426121986744000,
  p 5592984044606705769000, p 4962306861305528297000, p 4332340178664007615000, p 3703105244246982238000,
  p 3074623250045389130000, p 2446915331811808288000, p 1820002568367166485000, p 1193905980949734002000,
  p 568646532527769149300, m 55754872853046441980, m 679277390744840156300, m 1301900236944085969000,
  m 1923602688165210920000, m 2544364082680986205000, m 3164163820976385644000, m 3782981366397813248000,
  m 4400796245802158099000, m 5017588050186235963000, m 5633336435341474612000, m 6248021122475436530000,
  m 6861621898845164503000, m 7474118618394712831000, m 8085491202368466090000, m 8695719639942215106000,
  m 9304783988843304504000, m 9912664375954183488000, m 10519340997933458030000, m 11124794121827619740000,
  m 11729004085666067910000, m 12331951299071959150000, m 12933616243862464070000, m 13533979474630501060000,
  m 14133021619352882190000, m 14730723379965348680000, m 15327065532959163250000, m 15922028929949467600000,
  m 16515594498270521200000, m 17107743241529804880000, m 17698456240196374970000, m 18287714652154995640000,
  m 18875499713281555520000, m 19461792737990345810000, m 20046575119806336090000, m 20629828331905476310000,
  m 21211533927665153000000, m 21791673541218975520000, m 22370228887988421380000, m 22947181765224517200000,
  m 23522514052550912170000, m 24096207712483603960000, m 24668244790959873450000, m 25238607417870201180000,
  m 25807277807566998650000, m 26374238259389335110000, m 26939471158176520750000]

/-- src/mid_qual_coeffs.h:17705-18195 -/
def row36 : List ℤ := [
  m 27502958974764308720000, m 28064684266505014050000, m 28624629677757559480000, m 29182777940388776640000,
  m 29739111874268100420000, m 30293614387760294810000, m 30846268478198185350000, m 31397057232380175840000,
  m 31945963827035902940000, m 32492971529310715370000, m 33038063697224345590000, m 33581223780151658600000,
  m 34122435319273131210000, m 34661681948035698890000, m 35198947392609042300000, m 35734215472339962820000,
  m 36267470100188076050000, m 36798695283183575410000, m 37327875122853438900000, m 37854993815657630660000,
  m 38380035653427748870000, m 38902985023784131900000, m 39423826410560343730000, m 39942544394235486070000,
  m 40459123652325554680000, m 40973548959808236510000, m 41485805189530542680000, m 41995877312602089210000,
  m 42503750398801401810000, m 43009409616970822970000, m 43512840235395325410000, m 44014027622202684340000,
  m 44512957245735006420000, m 45009614674930050470000, m 45503985579696442700000, m 45996055731285788480000,
  m 46485811002646061250000, m 46973237368797007510000, m 47458320907175932810000, m 47941047798000164030000,
  m 48421404324605151110000, m 48899376873801969140000, m 49374951936206658300000, m 49848116106579077740000,
  m 50318856084155701420000, m 50787158672981214540000, m 51253010782222261350000, m 51716399426499583720000,
  m 52177311726193108830000, m 52635734907753182940000, m 53091656304014576730000, m 53545063354489443440000,
  m 53995943605672332080000, m 54444284711335571520000, m 54890074432808811700000, m 55333300639272327430000,
  m 55773951308039520810000, m 56212014524825938870000, m 56647478484029282390000, m 57080331488997820420000,
  m 57510561952284845790000, m 57938158395920667530000, m 58363109451657952290000, m 58785403861231492390000,
  m 59205030476595571560000, m 59621978260179186150000, m 60036236285109424610000, m 60447793735458259060000,
  m 60856639906462462140000, m 61262764204757753980000, m 61666156148589625380000, m 62066805368042761700000,
  m 62464701605243022990000, m 62859834714566688220000, m 63252194662851373270000, m 63641771529587351920000,
  m 64028555507115083990000, m 64412536900822106420000, m 64793706129321655550000, m 65172053724635612770000,
  m 65547570332378683270000, m 65920246711923425210000, m 66290073736576622320000, m 66657042393743865750000,
  m 67021143785081952280000, m 67382369126666108930000, m 67740709749133595510000, m 68096157097834530770000,
  m 68448702732977107660000, m 68798338329766845560000, m 69145055678533550390000, m 69488846684872572560000,
  m 69829703369761738180000, m 70167617869690626640000, m 70502582436769858180000, m 70834589438855695810000,
  m 71163631359645062080000, m 71489700798791941760000, m 71812790471998807160000, m 72132893211119996820000,
  m 72450001964245619210000, m 72764109795797965390000, m 73075209886607403180000, m 73383295533990981830000,
  m 73688360151833272790000, m 73990397270649592320000, m 74289400537654224860000, m 74585363716826491620000,
  m 74878280688962467020000, m 75168145451727413410000, m 75454952119710845020000, m 75738694924464109070000,
  m 76019368214545122690000, m 76296966455555832120000, m 76571484230166702090000, m 76842916238152941750000,
  m 77111257296411242010000, m 77376502338981608730000, m 77638646417063286860000, m 77897684699026253030000,
  m 78153612470410971590000, m 78406425133939345040000, m 78656118209505850730000, m 78902687334176917360000,
  m 79146128262174390970000, m 79386436864868663780000, m 79623609130753900140000, m 79857641165425918880000,
  m 80088529191556795810000, m 80316269548864641590000, m 80540858694073892870000, m 80762293200880360280000,
  m 80980569759907182720000, m 81195685178652040290000, m 81407636381441780410000, m 81616420409371309490000,
  m 81822034420247580310000, m 82024475688520582570000, m 82223741605221936410000, m 82419829677883780480000,
  m 82612737530470480800000, m 82802462903291366040000, m 82989003652922109270000, m 83172357752110050060000,
  m 83352523289687634430000, m 83529498470471529880000, m 83703281615161916560000, m 83873871160239040800000,
  m 84041265657856068860000, m 84205463775721220580000, m 84366464296987899070000, m 84524266120128381120000,
  m 84678868258810313040000, m 84830269841770536660000, m 84978470112679008340000, m 85123468430005415050000,
  m 85265264266878255180000, m 85403857210937183750000, m 85539246964188203660000, m 85671433342851443700000,
  m 85800416277202675320000, m 85926195811415303680000, m 86048772103398333670000, m 86168145424623263440000,
  m 86284316159958662320000, m 86397284807490450670000, m 86507051978346299870000, m 86613618396509108820000,
  m 86716984898635305270000, m 86817152433858483180000, m 86914122063600019800000, m 87007894961368105140000,
  m 87098472412558370840000, m 87185855814245492900000, m 87270046674978223260000, m 87351046614563186370000,
  m 87428857363848242020000, m 87503480764505075690000, m 87574918768802627430000, m 87643173439380398710000,
  m 87708246949018547360000, m 87770141580401748340000, m 87828859725880425330000, m 87884403887230464380000,
  m 87936776675405649950000, m 87985980810290182160000, m 88032019120445732470000, m 88074894542853783010000,
  m 88114610122658413160000, m 88151169012900209250000, m 88184574474251407510000, m 88214829874745168800000,
  m 88241938689502644230000, m 88265904500453386590000, m 88286730996057808070000, m 88304421971021154240000,
  m 88318981326006949370000, m 88330413067345305420000, m 88338721306740322960000, m 88343910260970919130000,
  m 88345984251590747600000, m 88344947704623158270000, m 88340805150255709790000, m 88333561222526536910000,
  m 88323220659012276530000, m 88309788300509650980000, m 88293269090715384490000, m 88273668075901742150000,
  m 88250990404590320530000, m 88225241327220512220000, m 88196426195817374110000, m 88164550463653667930000,
  m 88129619684910667650000, m 88091639514335890400000, m 88050615706895379300000, m 88006554117426447010000,
  m 87959460700283724400000, m 87909341508984707790000, m 87856202695851416520000, m 87800050511648635390000,
  m 87740891305219771770000, m 87678731523118918070000, m 87613577709241301420000, m 87545436504449301690000,
  m 87474314646195962250000, m 87400218968146291760000, m 87323156399794676290000, m 87243133966079973990000,
  m 87160158786997763780000, m 87074238077209016070000, m 86985379145647083090000, m 86893589395120975680000,
  m 86798876321916024610000, m 86701247515391831270000, m 86600710657577589180000, m 86497273522764708650000,
  m 86390943977096229330000, m 86281729978153739250000, m 86169639574542206690000, m 86054680905471179950000,
  m 85936862200333507090000, m 85816191778282212440000, m 85692678047805150560000, m 85566329506293520890000,
  m 85437154739613187710000, m 85305162421669291740000, m 85170361313968977750000, m 85032760265184650920000,
  m 84892368210710212790000, m 84749194172218747530000, m 84603247257214272040000, m 84454536658584624530000,
  m 84303071654147725940000, m 84148861606201215890000, m 83991915961062534130000, m 83832244248614179040000,
  m 83669856081839235390000, m 83504761156361455840000, m 83336969249976546730000, m 83166490222187221560000,
  m 82993334013732128700000, m 82817510646112908830000, m 82639030221121062690000, m 82457902920360861440000,
  m 82274139004768435250000, m 82087748814133843440000, m 81898742766616666480000, m 81707131358259592250000,
  m 81512925162503479500000, m 81316134829695319810000, m 81116771086597419290000, m 80914844735895712840000,
  m 80710366655701248040000, m 80503347799055070650000, m 80293799193427594260000, m 80081731940217265230000,
  m 79867157214245188900000, m 79650086263254390880000, m 79430530407397639880000, m 79208501038731979160000,
  m 78984009620704597840000, m 78757067687644123220000, m 78527686844240136000000, m 78295878765033486820000,
  m 78061655193892640200000, m 77825027943497499380000, m 77586008894814869370000, m 77344609996578148280000,
  m 77100843264758968510000, m 76854720782042537780000, m 76606254697300527140000, m 76355457225057833210000,
  m 76102340644963867020000, m 75846917301259478870000, m 75589199602238394500000, m 75329200019715739150000,
  m 75066931088489595690000, m 74802405405798388470000, m 74535635630785057150000, m 74266634483951309900000,
  m 73995414746613950270000, m 73721989260364686980000, m 73446370926517434790000, m 73168572705565820370000,
  m 72888607616631838370000, m 72606488736915781490000, m 72322229201142660390000, m 72035842201014749330000,
  m 71747340984651771950000, m 71456738856039950410000, m 71164049174471215310000, m 70869285353990560780000,
  m 70572460862830917660000, m 70273589222858299430000, m 69972684009009196220000, m 69669758848728741180000,
  m 69364827421404228460000, m 69057903457806477970000, m 68749000739517322480000, m 68438133098369210630000,
  m 68125314415876434380000, m 67810558622663795250000, m 67493879697901951730000, m 67175291668733402030000,
  m 66854808609700445460000, m 66532444642179174680000, m 66208213933801853470000, m 65882130697882099780000,
  m 65554209192845557670000, m 65224463721649903350000, m 64892908631208483280000, m 64559558311819549530000,
  m 64224427196580885420000, m 63887529760818661410000, m 63548880521501545800000, m 63208494036669275960000,
  m 62866384904842052720000, m 62522567764450887060000, m 62177057293247373960000, m 61829868207727940390000,
  m 61481015262545570760000, m 61130513249933729680000, m 60778376999113967400000, m 60424621375719178510000,
  m 60069261281206852010000, m 59712311652274428870000, m 59353787460270742880000, m 58993703710616406140000,
  m 58632075442210140650000, m 58268917726847855980000, m 57904245668636109450000, m 57538074403399508330000,
  m 57170419098100349990000, m 56801294950245468410000, m 56430717187297756380000, m 56058701066094626520000,
  m 55685261872254336090000, m 55310414919586336840000, m 54934175549507615100000, m 54556559130449646770000,
  m 54177581057267913660000, m 53797256750660967690000, m 53415601656571673440000, m 53032631245605438820000,
  m 52648361012434778000000, m 52262806475217284610000, m 51875983174996460920000, m 51487906675124048200000,
  m 51098592560661303110000, m 50708056437797147110000, m 50316313933252309240000, m 49923380693698688450000,
  m 49529272385160602900000, m 49134004692434423390000, m 48737593318499228080000, m 48340053983923493260000,
  m 47941402426282991910000, m 47541654399571692500000, m 47140825673608944310000, m 46738932033459036280000,
  m 46335989278844162500000, m 45932013223552169990000, m 45527019694857452450000, m 45121024532929904230000,
  m 44714043590248678630000, m 44306092731025182330000, m 43897187830608736040000, m 43487344774909474030000,
  m 43076579459812258350000, m 42664907790592368330000, m 42252345681331183440000, m 41838909054342213370000,
  m 41424613839579482860000, m 41009475974064842500000, m 40593511401300229520000, m 40176736070696340710000,
  m 39759165936982873840000, m 39340816959638745550000, m 38921705102312429430000, m 38501846332243547720000,
  m 38081256619684117400000, m 37659951937330197880000, m 37237948259736333720000, m 36815261562750231290000,
  m 36391907822938362020000, m 35967903017007662490000, m 35543263121240455080000, m 35118004110921711350000,
  m 34692141959763455900000, m 34265692639343000570000, m 33838672118533934820000, m 33411096362933158720000,
  m 32982981334302132660000, m 32554342989995712800000, m 32125197282396820960000, m 31695560158362037900000,
  m 31265447558648053520000, m 30834875417358459510000, m 30403859661380621530000, m 29972416209825295740000,
  m 29540560973466648570000, m 29108309854194449970000, m 28675678744446835850000, m 28242683526664947530000,
  m 27809340072731267640000, m 27375664243426526300000, m 26941671887867183110000, m 26507378842964925330000,
  m 26072800932875940540000, m 25637953968452347670000, m 25202853746693231520000, m 24767516050207806850000,
  m 24331956646661055640000, m 23896191288240272500000, m 23460235711113607360000, m 23024105634884423770000,
  m 22587816762061249370000, m 22151384777515220860000, m 21714825347943681700000, m 21278154121344652370000,
  m 20841386726478280090000, m 20404538772334092330000, m 19967625847608533350000, m 19530663520171269070000,
  m 19093667336537438090000, m 18656652821352442250000, m 18219635476857214660000, m 17782630782375703860000,
  m 17345654193786918140000, m 16908721143015323390000, m 16471847037501793170000, m 16035047259702825810000,
  m 15598337166564604790000, m 15161732089020372700000, m 14725247331471935330000, m 14288898171289598800000,
  m 13852699858298935360000, m 13416667614274903120000, m 12980816632447707380000, m 12545162076990064460000,
  m 12109719082525583780000, m 11674502753627822430000, m 11239528164323024290000, m 10804810357593823100000,
  m 10370364344896037290000, m 9936205105656713152000, m 9502347586794675395000, m 9068806702225443175000,
  m 8635597332385602451000, m 8202734323737344228000, m 7770232488301851052000, m 7338106603167762090000,
  m 6906371410023311096000, m 6475041614672838314000, m 6044131886572840882000, m 5613656858349518961000,
  m 5183631125338718259000, m 4754069245117851155000, m 4324985737034575381000, m 3896395081750927663000,
  m 3468311720780319843000, m 3040750056022464431000, m 2613724449314812633000, m 2187249221976859945000,
  m 1761338654351428049000, m 1336006985362486935000, m 911268412060739611000, m 487137089176528159600,
  m 63627128685148677770, p 359247400646122220500, p 781472473689339069700]

/-- src/mid_qual_coeffs.h:18196-18686 -/
def row37 : List ℤ := [
  p 1203034109396238965000, p 1623918371234312678000, p 2044111367621653878000, p 2463599252348319692000,
  p 2882368225015842866000, p 3300404531454056893000, p 3717694464152948560000, p 4134224362674899989000,
  p 4549980614084981797000, p 4964949653358522058000, p 5379117963797626287000, p 5792472077444214839000,
  p 6204998575492761743000, p 6616684088689541133000, p 7027515297748717792000, p 7437478933745757524000,
  p 7846561778518595522000, p 8254750665071460160000, p 8662032477962061081000, p 9068394153700423124000,
  p 9473822681140410366000, p 9878305101859544168000, p 10281828510550562780000, p 10684380055406296190000,
  p 11085946938493361790000, p 11486516416135931310000, p 11886075799292272520000, p 12284612453918854830000,
  p 12682113801351573380000, p 13078567318664758920000, p 13473960539044493990000, p 13868281052142371140000,
  p 14261516504447570830000, p 14653654599630773720000, p 15044683098910886970000, p 15434589821398721090000,
  p 15823362644454614020000, p 16210989504026902110000, p 16597458395007197950000, p 16982757371563519910000,
  p 17366874547481693880000, p 17749798096502933180000, p 18131516252660700140000, p 18512017310604415040000,
  p 18891289625938648700000, p 19269321615540448160000, p 19646101757883763850000, p 20021618593365465790000,
  p 20395860724615964130000, p 20768816816819875490000, p 21140475598029526790000, p 21510825859467030930000,
  p 21879856455837082480000, p 22247556305632997490000, p 22613914391431623240000, p 22978919760197955010000,
  p 23342561523581665360000, p 23704828858202334040000, p 24065711005949826160000, p 24425197274263819850000,
  p 24783277036425917470000, p 25139939731833694590000, p 25495174866290571640000, p 25848972012269928950000,
  p 26201320809199570880000, p 26552210963724136650000, p 26901632249980762140000, p 27249574509856039160000,
  p 27596027653257909650000, p 27940981658367681730000, p 28284426571897351490000, p 28626352509348656170000,
  p 28966749655257859930000, p 29305608263445994460000, p 29642918657268845500000, p 29978671229852634730000,
  p 30312856444334377160000, p 30645464834103739560000, p 30976487003029723420000, p 31305913625696824530000,
  p 31633735447633830080000, p 31959943285531001340000, p 32284528027472004810000, p 32607480633145995750000,
  p 32928792134067033540000, p 33248453633787574690000, p 33566456308111477900000, p 33882791405293734390000,
  p 34197450246254299730000, p 34510424224772518350000, p 34821704807692701870000, p 35131283535112468520000,
  p 35439152020584702910000, p 35745301951300467760000, p 36049725088277594020000, p 36352413266545889780000,
  p 36653358395330573650000, p 36952552458224283500000, p 37249987513371248480000, p 37545655693632365620000,
  p 37839549206755744790000, p 38131660335547477340000, p 38421981438030485270000, p 38710504947605742100000,
  p 38997223373215445280000, p 39282129299490806500000, p 39565215386905100390000, p 39846474371926753880000,
  p 40125899067159011720000, p 40403482361487584550000, p 40679217220221181780000, p 40953096685221541320000,
  p 41225113875045778590000, p 41495261985071455960000, p 41763534287626680280000, p 42029924132116222670000,
  p 42294424945144521250000, p 42557030230629048060000, p 42817733569923752250000, p 43076528621926192780000,
  p 43333409123193480300000, p 43588368888042938560000, p 43841401808664542940000, p 44092501855215584850000,
  p 44341663075920946900000, p 44588879597168790480000, p 44834145623605206640000, p 45077455438218770300000,
  p 45318803402433551220000, p 45558183956187589970000, p 45795591618014091040000, p 46031020985122649980000,
  p 46264466733468913340000, p 46495923617830859100000, p 46725386471877331800000, p 46952850208229455780000,
  p 47178309818527381430000, p 47401760373491549350000, p 47623197022975186080000, p 47842614996022241130000,
  p 48060009600919299990000, p 48275376225238382950000, p 48488710335888864870000, p 48700007479154568420000,
  p 48909263280738013100000, p 49116473445791504740000, p 49321633758958050570000, p 49524740084393761550000,
  p 49725788365802946620000, p 49924774626457323460000, p 50121694969223211560000, p 50316545576574915430000,
  p 50509322710617770570000, p 50700022713095821080000, p 50888642005403244360000, p 51075177088594874690000,
  p 51259624543387321300000, p 51441981030161882170000, p 51622243288966244870000, p 51800408139506537980000,
  p 51976472481141035990000, p 52150433292873667590000, p 52322287633337183460000, p 52492032640780742150000,
  p 52659665533052671260000, p 52825183607574521130000, p 52988584241321040980000, p 53149864890793697280000,
  p 53309023091988127320000, p 53466056460364134000000, p 53620962690811960250000, p 53773739557608460250000,
  p 53924384914382838610000, p 54072896694068003550000, p 54219272908858215300000, p 54363511650155560350000,
  p 54505611088523432430000, p 54645569473625742640000, p 54783385134174023920000, p 54919056477864079800000,
  p 55052581991315553630000, p 55183960240002980160000, p 55313189868191383880000, p 55440269598861137030000,
  p 55565198233635155490000, p 55687974652703594080000, p 55808597814742145210000, p 55927066756830655920000,
  p 56043380594370376170000, p 56157538520993116220000, p 56269539808472247250000, p 56379383806630984540000,
  p 56487069943244219810000, p 56592597723942738730000, p 56695966732112078360000, p 56797176628786092420000,
  p 56896227152544507740000, p 56993118119401292080000, p 57087849422694106140000, p 57180421032970652130000,
  p 57270832997872338830000, p 57359085442012471470000, p 57445178566857247020000, p 57529112650598800890000,
  p 57610888048031072520000, p 57690505190416014880000, p 57767964585356187120000, p 57843266816656112260000,
  p 57916412544186433400000, p 57987402503743577300000, p 58056237506909113060000, p 58122918440901948230000,
  p 58187446268433797900000, p 58249822027557450610000, p 58310046831514261720000, p 58368121868581043810000,
  p 58424048401910126450000, p 58477827769372106300000, p 58529461383392769480000, p 58578950730786768250000,
  p 58626297372592239460000, p 58671502943901465770000, p 58714569153687172890000, p 58755497784629531550000,
  p 58794290692940022120000, p 58830949808179701980000, p 58865477133080346040000, p 58897874743358980400000,
  p 58928144787531690970000, p 58956289486726070030000, p 58982311134490139180000, p 59006212096597402980000,
  p 59027994810853298540000, p 59047661786896034370000, p 59065215605997463110000, p 59080658920859359880000,
  p 59093994455410358080000, p 59105225004597843490000, p 59114353434178682930000, p 59121382680508130140000,
  p 59126315750326685150000, p 59129155720542589760000, p 59129905738016200090000, p 59128569019337237230000,
  p 59125148850603928480000, p 59119648587197716890000, p 59112071653556371700000, p 59102421542945641720000,
  p 59090701817228015380000, p 59076916106628648280000, p 59061068109501521060000, p 59043161592090942070000,
  p 59023200388292372330000, p 59001188399410939850000, p 58977129593918117580000, p 58951028007205087700000,
  p 58922887741336011100000, p 58892712964797922270000, p 58860507912248801410000, p 58826276884264101440000,
  p 58790024247080544310000, p 58751754432339009210000, p 58711471936824249520000, p 58669181322203464530000,
  p 58624887214763000990000, p 58578594305142201760000, p 58530307348066407510000, p 58480031162077349510000,
  p 58427770629262282000000, p 58373530694980282220000, p 58317316367588042050000, p 58259132718162122530000,
  p 58198984880220937360000, p 58136878049443937730000, p 58072817483389353820000, p 58006808501210140650000,
  p 57938856483368080700000, p 57868966871346029920000, p 57797145167358144340000, p 57723396934059232580000,
  p 57647727794251567250000, p 57570143430590219130000, p 57490649585286568560000, p 57409252059810569930000,
  p 57325956714590434480000, p 57240769468712075870000, p 57153696299615066080000, p 57064743242788564070000,
  p 56973916391464838940000, p 56881221896311004190000, p 56786665965120365630000, p 56690254862499764620000,
  p 56591994909558032580000, p 56491892483591640080000, p 56389954017768130180000, p 56286186000809734650000,
  p 56180594976673588560000, p 56073187544231606050000, p 55963970356949542880000, p 55852950122561546090000,
  p 55740133602747780050000, p 55625527612806638190000, p 55509139021327347910000, p 55390974749860088460000,
  p 55271041772587802950000, p 55149347115991491620000, p 55025897858519008370000, p 54900701130248687050000,
  p 54773764112555163230000, p 54645094037769876650000, p 54514698188844270570000, p 54382583899009189650000,
  p 54248758551433356280000, p 54113229578880491660000, p 53976004463367134760000, p 53837090735815040400000,
  p 53696495975706477430000, p 53554227810737826190000, p 53410293916467707460000, p 53264702015970227450000,
  p 53117459879482063300000, p 52968575324049575530000, p 52818056213177987360000, p 52665910456474810940000,
  p 52512146009294337430000, p 52356770872381869660000, p 52199793091514824070000, p 52041220757143209250000,
  p 51881062004032422050000, p 51719325010898982690000, p 51556018000051054000000, p 51391149237022780700000,
  p 51224727030213365240000, p 51056759730517849560000, p 50887255730965777600000, p 50716223466350201620000,
  p 50543671412862509400000, p 50369608087721417000000, p 50194042048805688520000, p 50016981894279923680000,
  p 49838436262225956240000, p 49658413830270349210000, p 49476923315208522280000, p 49293973472633663320000,
  p 49109573096560699930000, p 48923731019048461790000, p 48736456109825969710000, p 48547757275914862220000,
  p 48357643461249003250000, p 48166123646298399490000, p 47973206847688089760000, p 47778902117816329710000,
  p 47583218544477695990000, p 47386165250478424900000, p 47187751393253506040000, p 46987986164486520410000,
  p 46786878789723095190000, p 46584438527987055540000, p 46380674671398040020000, p 46175596544782353360000,
  p 45969213505290236280000, p 45761534942005979650000, p 45552570275564110120000, p 45342328957757030900000,
  p 45130820471152569470000, p 44918054328699646450000, p 44704040073343322850000, p 44488787277631139830000,
  p 44272305543327251110000, p 44054604501016241980000, p 43835693809716922920000, p 43615583156489299520000,
  p 43394282256040444710000, p 43171800850335351420000, p 42948148708203055560000, p 42723335624940942830000,
  p 42497371421924822210000, p 42270265946215116630000, p 42042029070159306340000, p 41812670691001805870000,
  p 41582200730486278710000, p 41350629134460133860000, p 41117965872483711610000, p 40884220937429379490000,
  p 40649404345090257240000, p 40413526133781880940000, p 40176596363946591150000, p 39938625117755576560000,
  p 39699622498717260150000, p 39459598631274938160000, p 39218563660414929190000, p 38976527751265324430000,
  p 38733501088703567540000, p 38489493876953883540000, p 38244516339194723140000, p 37998578717160514920000,
  p 37751691270743620860000, p 37503864277595966540000, p 37255108032735313150000, p 37005432848142395070000,
  p 36754849052368269250000, p 36503366990136589240000, p 36250997021942741700000, p 35997749523661195900000,
  p 35743634886145243270000, p 35488663514828749720000, p 35232845829334047070000, p 34976192263071462700000,
  p 34718713262841396980000, p 34460419288441787920000, p 34201320812267999880000, p 33941428318916059790000,
  p 33680752304791300810000, p 33419303277706645140000, p 33157091756490807200000, p 32894128270591421410000,
  p 32630423359678922210000, p 32365987573250518810000, p 32100831470240356830000, p 31834965618618722550000,
  p 31568400595002970280000, p 31301146984258908550000, p 31033215379112466090000, p 30764616379749817690000,
  p 30495360593430046210000, p 30225458634090919880000, p 29954921121956289160000, p 29683758683142409560000,
  p 29411981949271501430000, p 29139601557073536120000, p 28866628148001811730000, p 28593072367841603590000,
  p 28318944866316920710000, p 28044256296706376360000, p 27769017315450466350000, p 27493238581762804550000,
  p 27216930757247192920000, p 26940104505506942790000, p 26662770491756540730000, p 26384939382440087320000,
  p 26106621844841736550000, p 25827828546700346610000, p 25548570155830395430000, p 25268857339731213850000,
  p 24988700765209835740000, p 24708111097992674060000, p 24427099002349726200000, p 24145675140705562290000,
  p 23863850173267369240000, p 23581634757637497610000, p 23299039548439981020000, p 23016075196936579550000,
  p 22732752350654945790000, p 22449081653004132850000, p 22165073742904244530000, p 21880739254409966360000,
  p 21596088816331850440000, p 21311133051866785450000, p 21025882578223306530000, p 20740348006245204340000,
  p 20454539940045017290000, p 20168468976632468710000, p 19882145705540650830000, p 19595580708461851440000,
  p 19308784558875560800000, p 19021767821680120640000, p 18734541052832257510000, p 18447114798974035850000,
  p 18159499597073482300000, p 17871705974058792760000, p 17583744446454735110000, p 17295625520019407520000,
  p 17007359689389125020000, p 16718957437711213770000, p 16430429236290957530000, p 16141785544228166380000,
  p 15853036808066135690000, p 15564193461428458790000, p 15275265924669758000000, p 14986264604520616860000,
  p 14697199893733984550000, p 14408082170731141550000, p 14118921799256603150000, p 13829729128020730830000,
  p 13540514490357468280000, p 13251288203875943200000, p 12962060570110249670000, p 12672841874178825690000,
  p 12383642384438929840000, p 12094472352139862580000, p 11805342011086385820000]

/-- src/mid_qual_coeffs.h:18687-19177 -/
def row38 : List ℤ := [
  p 11516261577297439880000, p 11227241248662712190000, p 10938291204609775440000, p 10649421605762928050000,
  p 10360642593606754460000, p 10071964290157527100000, p 9783396797622446745000, p 9494950198072855542000,
  p 9206634553111385210000, p 8918459903541568469000, p 8630436269038206003000, p 8342573647826393487000,
  p 8054882016348239532000, p 7767371328944549014000, p 7480051517526239506000, p 7192932491258548766000,
  p 6906024136233123714000, p 6619336315154956213000, p 6332878867023199875000, p 6046661606814069725000,
  p 5760694325163667328000, p 5474986788059783613000, p 5189548736522045681000, p 4904389886297172988000,
  p 4619519927548758298000, p 4334948524545081837000, p 4050685315357956351000, p 3766739911553316981000,
  p 3483121897886810749000, p 3199840832006893728000, p 2916906244149839882000, p 2634327636839011763000,
  p 2352114484591655819000, p 2070276233618403059000, p 1788822301527623846000, p 1507762077038085314000,
  p 1227104919679563336000, p 946860159508516326600, p 667037096813783645100, p 387645001835316024800,
  p 108693114470260684200, m 169809356001852146400, m 447853231209895291400, m 725429363966218606100,
  m 1002528638551576897000, m 1279141970987068832000, m 1555260309317894086000, m 1830874633882091118000,
  m 2105975957585071664000, m 2380555326171853736000, m 2654603818498988850000, m 2928112546797570409000,
  m 3201072656947214984000, m 3473475328735126493000, m 3745311776120159143000, m 4016573247498492282000,
  m 4287251025958453486000, m 4557336429542851009000, m 4826820811506356610000, m 5095695560565298952000,
  m 5363952101154910054000, m 5631581893682354355000, m 5898576434772019296000, m 6164927257517767660000,
  m 6430625931730005223000, m 6695664064174694817000, m 6960033298823574099000, m 7223725317089608687000,
  m 7486731838071820257000, m 7749044618787265151000, m 8010655454414945982000, m 8271556178521036852000,
  m 8531738663299270450000, m 8791194819795910008000, m 9049916598143935273000, m 9307895987784455227000,
  m 9565125017699310108000, m 9821595756628929982000, m 10077300313294802860000, m 10332230836623516610000,
  m 10586379515960397610000, m 10839738581287306630000, m 11092300303441081840000, m 11344056994321255040000,
  m 11595001007101692980000, m 11845124736443487230000, m 12094420618697312060000, m 12342881132112560280000,
  m 12590498797041654290000, m 12837266176136122450000, m 13083175874553507120000, m 13328220540150332360000,
  m 13572392863680148720000, m 13815685578988615050000, m 14058091463206996400000, m 14299603336937318710000,
  m 14540214064447814800000, m 14779916553854143740000, m 15018703757309282070000, m 15256568671181112720000,
  m 15493504336240042820000, m 15729503837833068940000, m 15964560306062047080000, m 16198666915959885650000,
  m 16431816887665854200000, m 16664003486592360820000, m 16895220023601199360000, m 17125459855166030680000,
  m 17354716383538729760000, m 17582983056916888170000, m 17810253369601751800000, m 18036520862158821740000,
  m 18261779121582354820000, m 18486021781441229460000, m 18709242522039383890000, m 18931435070568925850000,
  m 19152593201256194880000, m 19372710735513974210000, m 19591781542088210370000, m 19809799537197638160000,
  m 20026758684682472120000, m 20242652996140534970000, m 20457476531067536370000, m 20671223396995627230000,
  m 20883887749623476800000, m 21095463792955270870000, m 21305945779426597720000, m 21515328010033566470000,
  m 21723604834463368750000, m 21930770651214394730000, m 22136819907722864560000, m 22341747100483886280000,
  m 22545546775166601560000, m 22748213526734000100000, m 22949741999559271540000, m 23150126887534988000000,
  m 23349362934187616120000, m 23547444932786821610000, m 23744367726448133010000, m 23940126208243716700000,
  m 24134715321300900330000, m 24328130058907377730000, m 24520365464605981750000, m 24711416632297923970000,
  m 24901278706330876030000, m 25089946881598296030000, m 25277416403626351130000, m 25463682568666955550000,
  m 25648740723780695210000, m 25832586266927673610000, m 26015214647046292730000, m 26196621364134984900000,
  m 26376801969334934060000, m 26555752065003577870000, m 26733467304791267600000, m 26909943393717446880000,
  m 27085176088238309300000, m 27259161196316624400000, m 27431894577492244740000, m 27603372142943742740000,
  m 27773589855554669020000, m 27942543729975643300000, m 28110229832679563980000, m 28276644282024681630000,
  m 28441783248305922420000, m 28605642953810456830000, m 28768219672869565200000, m 28929509731909164930000,
  m 29089509509493632580000, m 29248215436376303980000, m 29405623995539420280000, m 29561731722239295170000,
  m 29716535204042564480000, m 29870031080868405680000, m 30022216045020826810000, m 30173086841223465940000,
  m 30322640266652039360000, m 30470873170965627520000, m 30617782456331371200000, m 30763365077455418630000,
  m 30907618041603003630000, m 31050538408621562780000, m 31192123290963161480000, m 31332369853700201350000,
  m 31471275314542550590000, m 31608836943854423670000, m 31745052064664010420000, m 31879918052674128280000,
  m 32013432336273376040000, m 32145592396540016660000, m 32276395767248882250000, m 32405840034874680930000,
  m 32533922838589869040000, m 32660641870267517520000, m 32785994874475701160000, m 32909979648473893630000,
  m 33032594042206631670000, m 33153835958295742720000, m 33273703352026528110000, m 33392194231339706110000,
  m 33509306656813664860000, m 33625038741651262210000, m 33739388651658717700000, m 33852354605229613740000,
  m 33963934873319918380000, m 34074127779424959480000, m 34182931699554799830000, m 34290345062207165980000,
  m 34396366348335999530000, m 34500994091323918480000, m 34604226876946242000000, m 34706063343336607670000,
  m 34806502180952568430000, m 34905542132533999790000, m 35003181993065098650000, m 35099420609732370380000,
  m 35194256881878387630000, m 35287689760957588780000, m 35379718250489603010000, m 35470341406007432220000,
  m 35559558335008241800000, m 35647368196900444810000, m 35733770202946205350000, m 35818763616208353320000,
  m 35902347751489093160000, m 35984521975271958300000, m 36065285705657870390000, m 36144638412304037740000,
  m 36222579616355040660000, m 36299108890378612870000, m 36374225858294422940000, m 36447930195305030960000,
  m 36520221627821478350000, m 36591099933391330780000, m 36660564940620717200000, m 36728616529096714530000,
  m 36795254629309461320000, m 36860479222568951960000, m 36924290340923159130000, m 36986688067074448580000,
  m 37047672534291203050000, m 37107243926320686380000, m 37165402477300016890000, m 37222148471663474920000,
  m 37277482244050596320000, m 37331404179211386130000, m 37383914711908909720000, m 37435014326821775660000,
  m 37484703558445039580000, m 37532982990987692890000, m 37579853258270483480000, m 37625315043621676470000,
  m 37669369079769189650000, m 37712016148734416170000, m 37753257081721188760000, m 37793092759006546280000,
  m 37831524109825693140000, m 37868552112260360340000, m 37904177793120126000000, m 37938402227827557680000,
  m 37971226540296734340000, m 38002651902814831060000, m 38032679535917991520000, m 38061310708269538180000,
  m 38088546736532971530000, m 38114388985245904520000, m 38138838866692126700000, m 38161897840770849390000,
  m 38183567414865564720000, m 38203849143711989750000, m 38222744629262697080000, m 38240255520551122020000,
  m 38256383513555230930000, m 38271130351057320300000, m 38284497822504581660000, m 38296487763867524990000,
  m 38307102057495393690000, m 38316342631972751670000, m 38324211461972709500000, m 38330710568109364500000,
  m 38335842016789082080000, m 38339607920059825520000, m 38342010435458961090000, m 38343051765860690470000,
  m 38342734159320725240000, m 38341059908920758080000, m 38338031352610711360000, m 38333650873050091240000,
  m 38327920897447844250000, m 38320843897400519780000, m 38312422388729693950000, m 38302658931317801100000,
  m 38291556128942366040000, m 38279116629109463820000, m 38265343122885038190000, m 38250238344725833860000,
  m 38233805072308465200000, m 38216046126357258520000, m 38196964370470861050000, m 38176562710948124790000,
  m 38154844096611354540000, m 38131811518629725150000, m 38107468010340774490000, m 38081816647070486810000,
  m 38054860545952969660000, m 38026602865747630220000, m 37997046806656622820000, m 37966195610139687520000,
  m 37934052558728690540000, m 37900620975840931430000, m 37865904225590552890000, m 37829905712599760820000,
  m 37792628881808262250000, m 37754077218281652930000, m 37714254247018490360000, m 37673163532756892380000,
  m 37630808679779401190000, m 37587193331716600390000, m 37542321171350196810000, m 37496195920415018030000,
  m 37448821339398889070000, m 37400201227342718970000, m 37350339421638886710000, m 37299239797828454650000,
  m 37246906269397569010000, m 37193342787572992830000, m 37138553341116114340000, m 37082541956116514910000,
  m 37025312695783592090000, m 36966869660238115070000, m 36907216986302851580000, m 36846358847291195980000,
  m 36784299452795688810000, m 36721043048475391210000, m 36656593915841876960000, m 36590956372044736600000,
  m 36524134769656424350000, m 36456133496455065260000, m 36386956975207601230000, m 36316609663451073560000,
  m 36245096053273966490000, m 36172420671094752090000, m 36098588077442773040000, m 36023602866734415850000,
  m 35947469667052069140000, m 35870193139918975530000, m 35791777980076367060000, m 35712228915256297780000,
  m 35631550705956976690000, m 35549748145215634210000, m 35466826058379938430000, m 35382789302880244910000,
  m 35297642768000409910000, m 35211391374646428390000, m 35124040075116745810000, m 35035593852870604780000,
  m 34946057722294467230000, m 34855436728470706670000, m 34763735946941983950000, m 34670960483477290010000,
  m 34577115473837399010000, m 34482206083537556860000, m 34386237507611843400000, m 34289214970375481400000,
  m 34191143725186562830000, m 34092029054206711210000, m 33991876268164041130000, m 33890690706110168230000,
  m 33788477735182118390000, m 33685242750359046330000, m 33580991174222321980000, m 33475728456710534680000,
  m 33369460074879491480000, m 33262191532655899940000, m 33153928360594954110000, m 33044676115634227390000,
  m 32934440380849747350000, m 32823226765208235260000, m 32711040903322211880000, m 32597888455203395700000,
  m 32483775106013248310000, m 32368706565817057070000, m 32252688569334839640000, m 32135726875691198190000,
  m 32017827268167606350000, m 31898995553952168510000, m 31779237563888457680000, m 31658559152225952450000,
  m 31536966196367756680000, m 31414464596618793560000, m 31291060275935592070000, m 31166759179671641810000,
  m 31041567275326122310000, m 30915490552290138760000, m 30788535021592707020000, m 30660706715646542050000,
  m 30532011687995757330000, m 30402456013058373570000, m 30272045785873987630000, m 30140787121845996690000,
  m 30008686156488474270000, m 29875749045167303440000, m 29741981962846266820000, m 29607391103830077120000,
  m 29471982681507187460000, m 29335762928091988390000, m 29198738094369793380000, m 29060914449435945930000,
  m 28922298280440591550000, m 28782895892330583490000, m 28642713607589297900000, m 28501757765980467330000,
  m 28360034724287992590000, m 28217550856056638840000, m 28074312551335259220000, m 27930326216416091670000,
  m 27785598273574685990000, m 27640135160812422680000, m 27493943331595152500000, m 27347029254593313220000,
  m 27199399413424414630000, m 27051060306389933180000, m 26902018446217888520000, m 26752280359800215830000,
  m 26601852587935396540000, m 26450741685064214610000, m 26298954219013884730000, m 26146496770733805200000,
  m 25993375934037731260000, m 25839598315341022070000, m 25685170533402834360000, m 25530099219061970170000,
  m 25374391014979280530000, m 25218052575376562500000, m 25061090565775530710000, m 24903511662736477190000,
  m 24745322553600278730000, m 24586529936224488460000, m 24427140518725820940000, m 24267161019219699680000,
  m 24106598165557754840000, m 23945458695070508180000, m 23783749354305304470000, m 23621476898765858990000,
  m 23458648092655362650000, m 23295269708614457380000, m 23131348527461190270000, m 22966891337933688320000,
  m 22801904936428276240000, m 22636396126743418310000, m 22470371719816850250000, m 22303838533469734540000,
  m 22136803392148146050000, m 21969273126662080770000, m 21801254573929753580000, m 21632754576719066790000,
  m 21463779983387564300000, m 21294337647627616970000, m 21124434428208846650000, m 20954077188718951070000,
  m 20783272797309563470000, m 20612028126437700820000, m 20440350052608913000000, m 20268245456124819530000,
  m 20095721220823178840000, m 19922784233825438630000, m 19749441385280792960000, m 19575699568110595140000,
  m 19401565677753482170000, m 19227046611914547920000, m 19052149270307448700000, m 18876880554404372710000,
  m 18701247367180046350000, m 18525256612862377850000, m 18348915196675972370000, m 18172230024593771700000,
  m 17995208003084716430000, m 17817856038862309280000, m 17640181038632616020000, m 17462189908847433270000,
  m 17283889555449894070000, m 17105286883628648700000, m 16926388797568654050000, m 16747202200200204570000,
  m 16567733992954234560000, m 16387991075512179190000, m 16207980345558834050000, m 16027708698538623040000,
  m 15847183027407421180000, m 15666410222386061170000, m 15485397170718136240000]

/-- src/mid_qual_coeffs.h:19178-19668 -/
def row39 : List ℤ := [
  m 15304150756423015490000, m 15122677860051649330000, m 14940985358446423850000, m 14759080124494098210000,
  m 14576969026886602540000, m 14394658929877990300000, m 14212156693042962770000, m 14029469171035195250000,
  m 13846603213351275810000, m 13663565664086475180000, m 13480363361699779770000, m 13297003138772238320000,
  m 13113491821773204470000, m 12929836230818666440000, m 12746043179438641580000, m 12562119474340761030000,
  m 12378071915174696300000, m 12193907294296396140000, m 12009632396537898490000, m 11825253998969509130000,
  m 11640778870671195900000, m 11456213772500579620000, m 11271565456859224140000, m 11086840667465811070000,
  m 10902046139123947760000, m 10717188597492965230000, m 10532274758862975020000, m 10347311329924962450000,
  m 10162305007543353150000, m 9977262478532865684000, m 9792190419430813771000, m 9607095496272283466000,
  m 9421984364370238302000, m 9236863668087909684000, m 9051740040620555463000, m 8866620103770735315000,
  m 8681510467731490640000, m 8496417730861525073000, m 8311348479472294284000, m 8126309287604658639000,
  m 7941306716815481714000, m 7756347315957696500000, m 7571437620968535307000, m 7386584154649924615000,
  m 7201793426458470873000, m 7017071932291848962000, m 6832426154274008185000, m 6647862560546742027000,
  m 6463387605058422042000, m 6279007727351578086000, m 6094729352357750321000, m 5910558890189114880000,
  m 5726502735928916053000, m 5542567269428886503000, m 5358758855101453138000, m 5175083841715077019000,
  m 4991548562194799960000, m 4808159333415089077000, m 4624922456001809798000, m 4441844214130421960000,
  m 4258930875325916552000, m 4076188690263356400000, m 3893623892574035218000, m 3711242698644000656000,
  m 3529051307422225055000, m 3347055900222299362000, m 3165262640532555452000, m 2983677673818009492000,
  m 2802307127334631336000, m 2621157109933241574000, m 2440233711873597538000, m 2259543004632077439000,
  m 2079091040717726835000, m 1898883853480690478000, m 1718927456930304158000, m 1539227845549882901000,
  m 1359790994110375839000, m 1180622857490685532000, m 1001729370495117759000, m 823116447670193488600,
  m 644789983128492605100, m 466755850369716235600, m 289019902100631741200, m 111587970062115986700,
  p 65534135148756610850, p 242340624253391995900, p 418825729461010669000, p 594983704645444916800,
  p 770808825512739143300, p 946295389772344387000, p 1121437717306370856000, p 1296230150338159768000,
  p 1470667053595075139000, p 1644742814478691551000, p 1818451843225367247000, p 1991788573072934707000,
  p 2164747460419015343000, p 2337322984986742554000, p 2509509649980827757000, p 2681301982247215299000,
  p 2852694532431100262000, p 3023681875134739602000, p 3194258609069374275000, p 3364419357214090274000,
  p 3534158766965082771000, p 3703471510287963654000, p 3872352283871004184000, p 4040795809271372273000,
  p 4208796833066042412000, p 4376350126999426738000, p 4543450488126117025000, p 4710092738958259105000,
  p 4876271727610091408000, p 5041982327937555483000, p 5207219439682118796000, p 5371977988611340702000,
  p 5536252926654062284000, p 5700039232042755331000, p 5863331909446321847000, p 6026125990108750813000,
  p 6188416531979610384000, p 6350198619851843206000, p 6511467365487804081000, p 6672217907754643773000,
  p 6832445412749991763000, p 6992145073933239581000, p 7151312112248778165000, p 7309941776256052997000,
  p 7468029342250372178000, p 7625570114386874781000, p 7782559424802884760000, p 7938992633739787977000,
  p 8094865129659387432000, p 8250172329366438427000, p 8404909678122115412000, p 8559072649760172391000,
  p 8712656746803802967000, p 8865657500575736000000, p 9018070471312618930000, p 9169891248276180689000,
  p 9321115449859551278000, p 9471738723698001157000, p 9621756746776539843000, p 9771165225533018454000,
  p 9919959895964938868000, p 10068136523733006890000, p 10215690904259648970000, p 10362618862833895170000,
  p 10508916254707486990000, p 10654578965195777530000, p 10799602909771504900000, p 10943984034164736960000,
  p 11087718314452035120000, p 11230801757153983420000, p 11373230399323544200000, p 11515000308639753530000,
  p 11656107583493368070000, p 11796548353078974820000, p 11936318777478405270000, p 12075415047746456770000,
  p 12213833385997149350000, p 12351570045484132810000, p 12488621310682781150000, p 12624983497372756320000,
  p 12760652952714046310000, p 12895626055325081930000, p 13029899215361151740000, p 13163468874586794570000,
  p 13296331506451736020000, p 13428483616163704490000, p 13559921740756663060000, p 13690642449164415000000,
  p 13820642342286736680000, p 13949918053057606070000, p 14078466246511750760000, p 14206283619850138820000,
  p 14333366902500324850000, p 14459712856182545620000, p 14585318274967513160000, p 14710179985338798700000,
  p 14834294846248113470000, p 14957659749176237440000, p 15080271618185469320000, p 15202127409975076700000,
  p 15323224113934684560000, p 15443558752197143650000, p 15563128379686621680000, p 15681930084171410680000,
  p 15799960986309153540000, p 15917218239693861050000, p 16033699030903227210000, p 16149400579540723390000,
  p 16264320138278681740000, p 16378454992903469240000, p 16491802462349972040000, p 16604359898744407930000,
  p 16716124687442009120000, p 16827094247061554090000, p 16937266029522349060000, p 17046637520078387100000,
  p 17155206237348275550000, p 17262969733349998180000, p 17369925593528396410000, p 17476071436785008530000,
  p 17581404915505801560000, p 17685923715588035780000, p 17789625556462595880000, p 17892508191120835140000,
  p 17994569406134545070000, p 18095807021679262380000, p 18196218891551575550000, p 18295802903191012140000,
  p 18394556977694716230000, p 18492479069834206080000, p 18589567168070359830000, p 18685819294568096310000,
  p 18781233505206031190000, p 18875807889590991730000, p 18969540571065070900000, p 19062429706714622840000,
  p 19154473487378987330000, p 19245670137654728310000, p 19336017915901647840000, p 19425515114246821340000,
  p 19514160058584736520000, p 19601951108580014070000, p 19688886657667648160000, p 19774965133049825040000,
  p 19860184995694977740000, p 19944544740333855800000, p 20028042895452450900000, p 20110678023288141130000,
  p 20192448719820180530000, p 20273353614762716140000, p 20353391371552550040000, p 20432560687341082440000,
  p 20510860292978146820000, p 20588288953001428880000, p 20664845465619563080000, p 20740528662697716170000,
  p 20815337409738329040000, p 20889270605865338220000, p 20962327183802041160000, p 21034506109850899630000,
  p 21105806383872475680000, p 21176227039260806680000, p 21245767142919407220000, p 21314425795236684810000,
  p 21382202130057909860000, p 21449095314656785870000, p 21515104549708107200000, p 21580229069255395640000,
  p 21644468140680800270000, p 21707821064672601860000, p 21770287175189562930000, p 21831865839427551310000,
  p 21892556457783239670000, p 21952358463815826430000, p 22011271324209525690000, p 22069294538734275140000,
  p 22126427640203086230000, p 22182670194432514830000, p 22238021800197670210000, p 22292482089189612720000,
  p 22346050725968529760000, p 22398727407919263200000, p 22450511865201524150000, p 22501403860703126560000,
  p 22551403189988934910000, p 22600509681250862080000, p 22648723195255028130000, p 22696043625289772730000,
  p 22742470897110574370000, p 22788004968884603510000, p 22832645831135370750000, p 22876393506684389910000,
  p 22919248050592661650000, p 22961209550101459070000, p 23002278124571971520000, p 23042453925422055000000,
  p 23081737136065049210000, p 23120127971844681450000, p 23157626679971030850000, p 23194233539453494240000,
  p 23229948861034971690000, p 23264772987122785850000, p 23298706291719638630000, p 23331749180353598820000,
  p 23363902090007341020000, p 23395165489044755230000, p 23425539877139081250000, p 23455025785197641310000,
  p 23483623775286416870000, p 23511334440554625410000, p 23538158405156413950000, p 23564096324173355510000,
  p 23589148883534956780000, p 23613316799937695320000, p 23636600820764263430000, p 23659001724001592300000,
  p 23680520318156772160000, p 23701157442173609320000, p 23720913965347262240000, p 23739790787237417240000,
  p 23757788837582155410000, p 23774909076209034490000, p 23791152492946841580000, p 23806520107534679420000,
  p 23821012969532536610000, p 23834632158227646470000, p 23847378782543244640000, p 23859253980943867370000,
  p 23870258921341530810000, p 23880394800999416580000, p 23889662846436390800000, p 23898064313329019340000,
  p 23905600486413322160000, p 23912272679385890690000, p 23918082234804090380000, p 23923030523984569270000,
  p 23927118946902230600000, p 23930348932087193010000, p 23932721936521083180000, p 23934239445533237040000,
  p 23934902972694996820000, p 23934714059713957300000, p 23933674276327131260000, p 23931785220192685060000,
  p 23929048516781979290000, p 23925465819269928730000, p 23921038808424539190000, p 23915769192496281530000,
  p 23909658707106069910000, p 23902709115132416660000, p 23894922206598194140000, p 23886299798556430990000,
  p 23876843734975078350000, p 23866555886621169680000, p 23855438150944550180000, p 23843492451960047800000,
  p 23830720740129667850000, p 23817124992243618770000, p 23802707211300551830000, p 23787469426387180820000,
  p 23771413692557308780000, p 23754542090709699430000, p 23736856727465606330000, p 23718359735045404290000,
  p 23699053271144553190000, p 23678939518808755510000, p 23658020686308524320000, p 23636299007012917740000,
  p 23613776739262778820000, p 23590456166243090980000, p 23566339595854652600000, p 23541429360585449930000,
  p 23515727817380525750000, p 23489237347512190220000, p 23461960356448751040000, p 23433899273723131950000,
  p 23405056552800620310000, p 23375434670945913490000, p 23345036129089453640000, p 23313863451693613440000,
  p 23281919186617719690000, p 23249205904982612780000, p 23215726201034799490000, p 23181482692009765650000,
  p 23146478017994753370000, p 23110714841790945410000, p 23074195848775144690000, p 23036923746760779570000,
  p 22998901265858278980000, p 22960131158335135720000, p 22920616198474855220000, p 22880359182436283680000,
  p 22839362928111364090000, p 22797630274982895740000, p 22755164083981866710000, p 22711967237344003830000,
  p 22668042638465204410000, p 22623393211758319940000, p 22578021902507266550000, p 22531931676721663950000,
  p 22485125520991318570000, p 22437606442339300630000, p 22389377468074963570000, p 22340441645647160060000,
  p 22290802042495611350000, p 22240461745902964610000, p 22189423862845803110000, p 22137691519845324560000,
  p 22085267862817507710000, p 22032156056923411170000, p 21978359286417788240000, p 21923880754499053730000,
  p 21868723683156563860000, p 21812891313019986720000, p 21756386903205769080000, p 21699213731165371810000,
  p 21641375092531841690000, p 21582874300966420560000, p 21523714688004097290000, p 21463899602900393120000,
  p 21403432412475426220000, p 21342316500959866970000, p 21280555269839534440000, p 21218152137698929130000,
  p 21155110540066198820000, p 21091433929255875030000, p 21027125774212077070000, p 20962189560352376770000,
  p 20896628789409657420000, p 20830446979274297980000, p 20763647663836689330000, p 20696234392828642570000,
  p 20628210731664167200000, p 20559580261281889100000, p 20490346577984575020000, p 20420513293280595150000,
  p 20350084033723278240000, p 20279062440752062410000, p 20207452170530603460000, p 20135256893788139130000,
  p 20062480295657102720000, p 19989126075513318490000, p 19915197946813771120000, p 19840699636936181040000,
  p 19765634887016153910000, p 19690007451786102030000, p 19613821099413298430000, p 19537079611336616340000,
  p 19459786782105047470000, p 19381946419214726050000, p 19303562342945221120000, p 19224638386197685460000,
  p 19145178394331357880000, p 19065186224999435370000, p 18984665747986669770000, p 18903620845044884130000,
  p 18822055409728780470000, p 18739973347233695670000, p 18657378574229484810000, p 18574275018697697640000,
  p 18490666619766820600000, p 18406557327547596620000, p 18321951102968114560000, p 18236851917610687680000,
  p 18151263753545411590000, p 18065190603166602240000, p 17978636469026652060000, p 17891605363672617020000,
  p 17804101309479063110000, p 17716128338485297120000, p 17627690492228372410000, p 17538791821579059230000,
  p 17449436386575494330000, p 17359628256259330780000, p 17269371508508469400000, p 17178670229873337400000,
  p 17087528515411303610000, p 16995950468520341540000, p 16903940200774664340000, p 16811501831759214550000,
  p 16718639488903039180000, p 16625357307315443040000, p 16531659429620434420000, p 16437550005790262870000,
  p 16343033192981806240000, p 16248113155369867830000, p 16152794063981977910000, p 16057080096534923090000,
  p 15960975437267453930000, p 15864484276776831310000, p 15767610811853339920000, p 15670359245315038870000,
  p 15572733785842539490000, p 15474738647816198780000, p 15376378051149070990000, p 15277656221124351820000,
  p 15178577388229129570000, p 15079145787992054670000, p 14979365660816670680000, p 14879241251819266800000,
  p 14778776810664438280000, p 14677976591401058460000, p 14576844852297934090000, p 14475385855681871230000,
  p 14373603867772060010000, p 14271503158518474250000, p 14169088001438831240000]

/-- src/mid_qual_coeffs.h:19669-20159 -/
def row40 : List ℤ := [
  p 14066362673454199530000, p 13963331454728030490000, p 13859998628502206650000, p 13756368480934546830000,
  p 13652445300938240970000, p 13548233380018494650000, p 13443737012110391830000, p 13338960493418783510000,
  p 13233908122255516880000, p 13128584198878072080000, p 13022993025330716480000, p 12917138905281137390000,
  p 12811026143861894460000, p 12704659047509424130000, p 12598041923803901240000, p 12491179081308900820000,
  p 12384074829414066770000, p 12276733478173403120000, p 12169159338148240910000, p 12061356720246799950000,
  p 11953329935567853680000, p 11845083295240036820000, p 11736621110266086210000, p 11627947691364948780000,
  p 11519067348814124970000, p 11409984392292195180000, p 11300703130723968580000, p 11191227872121628840000,
  p 11081562923430872310000, p 10971712590375009920000, p 10861681177298252510000, p 10751472987012516450000,
  p 10641092320641474730000, p 10530543477465895510000, p 10419830754771711520000, p 10308958447694901210000,
  p 10197930849067828500000, p 10086752249268115190000, p 9975426936064558852000, p 9863959194464877006000,
  p 9752353306566170191000, p 9640613551400839916000, p 9528744204787876777000, p 9416749539180357251000,
  p 9304633823517478907000, p 9192401323071813253000, p 9080056299303519514000, p 8967603009708400468000,
  p 8855045707671638493000, p 8742388642317743683000, p 8629636058365221623000, p 8516792195976455440000,
  p 8403861290613386632000, p 8290847572890793716000, p 8177755268428994891000, p 8064588597710186171000,
  p 7951351775932936368000, p 7838049012866245011000, p 7724684512707476287000, p 7611262473938566723000,
  p 7497787089181416341000, p 7384262545057384519000, p 7270693022043545966000, p 7157082694330919421000,
  p 7043435729685557647000, p 6929756289305138815000, p 6816048527680886589000, p 6702316592457180339000,
  p 6588564624292186883000, p 6474796756718737017000, p 6361017116008632536000, p 6247229821032179367000,
  p 6133438983123528816000, p 6019648705942142784000, p 5905863085339135362000, p 5792086209219025189000,
  p 5678322157407190049000, p 5564575001515090371000, p 5450848804806159351000, p 5337147622061865870000,
  p 5223475499451135892000, p 5109836474395393010000, p 4996234575439402866000, p 4882673822120103317000,
  p 4769158224834579108000, p 4655691784712203944000, p 4542278493484839462000, p 4428922333356677609000,
  p 4315627276878344444000, p 4202397286819125215000, p 4089236316038654115000, p 3976148307362718922000,
  p 3863137193456065452000, p 3750206896697139170000, p 3637361329056045534000, p 3524604391967867745000,
  p 3411939976211584235000, p 3299371961786785985000, p 3186904217791437391000, p 3074540602300088594000,
  p 2962284962245597495000, p 2850141133296198591000, p 2738112939738512482000, p 2626204194356701368000,
  p 2514418698316729628000, p 2402760241046049136000, p 2291232600119179089000, p 2179839541141053054000,
  p 2068584817631273606000, p 1957472170908511394000, p 1846505329978235789000, p 1735688011417616450000,
  p 1625023919262481062000, p 1514516744897550025000, p 1404170166942085317000, p 1293987851141493778000,
  p 1183973450255115155000, p 1074130603949209010000, p 964462938685062736600, p 854974067614655514600,
  p 745667590470176420500, p 636547093459750963700, p 527616149159407963400, p 418878316410211473900,
  p 310337140210845307200, p 201996151616154579000, p 93858867633770963120, m 14071208879851090760,
  m 121790589319289466300, m 229295799431643254600, m 336583379418339503000, m 443649884032571839600,
  m 550491882678360999100, m 657105959510185882100, m 763488713528247445000, m 869636758676638124400,
  m 975546723939467530000, m 1081215253433690268000, m 1186639006506335581000, m 1291814657826114387000,
  m 1396738897477108534000, m 1501408431051205810000, m 1605819979740030973000, m 1709970280423336600000,
  m 1813856085761725033000, m 1917474164283543585000, m 2020821300475335795000, m 2123894294867226167000,
  m 2226689964122856429000, m 2329205141121998989000, m 2431436675048983361000, m 2533381431475018453000,
  m 2635036292444089751000, m 2736398156553769653000, m 2837463939040303621000, m 2938230571857904324000,
  m 3038695003759765681000, m 3138854200379595289000, m 3238705144309056523000, m 3338244835176744624000,
  m 3437470289727350393000, m 3536378541896539602000, m 3634966642887346467000, m 3733231661246981753000,
  m 3831170682939380721000, m 3928780811420458191000, m 4026059167711330735000, m 4123002890468281591000,
  m 4219609136056849793000, m 4315875078620500825000, m 4411797910151173452000, m 4507374840558520431000,
  m 4602603097738638457000, m 4697479927639311723000, m 4792002594329335637000, m 4886168380062160338000,
  m 4979974585342869825000, m 5073418528990297424000, m 5166497548203035915000, m 5259208998619991913000,
  m 5351550254382690228000, m 5443518708196553308000, m 5535111771391841871000, m 5626326873981242137000,
  m 5717161464721026685000, m 5807613011166785836000, m 5897678999730726042000, m 5987356935739235094000,
  m 6076644343486445941000, m 6165538766290217101000, m 6254037766546213173000, m 6342138925778936028000,
  m 6429839844695381809000, m 6517138143236806501000, m 6604031460627693751000, m 6690517455426898720000,
  m 6776593805576725172000, m 6862258208449132812000, m 6947508380895431866000, m 7032342059290811599000,
  m 7116756999581770778000, m 7200750977329073245000, m 7284321787754370315000, m 7367467245780485652000,
  m 7450185186076384258000, m 7532473463096870360000, m 7614329951125164369000, m 7695752544310966849000,
  m 7776739156711943648000, m 7857287722330266052000, m 7937396195150590896000, m 8017062549176968330000,
  m 8096284778469479382000, m 8175060897177658186000, m 8253388939577119380000, m 8331266960101213416000,
  m 8408693033373872814000, m 8485665254242844642000, m 8562181737809004641000, m 8638240619457924441000,
  m 8713840054889521110000, m 8788978220145060558000, m 8863653311636210771000, m 8937863546172551744000,
  m 9011607160986285131000, m 9084882413758905612000, m 9157687582645996941000, m 9230020966299256493000,
  m 9301880883891684333000, m 9373265675137930637000, m 9444173700317411228000, m 9514603340292949069000,
  m 9584552996532990249000, m 9654021091127875485000, m 9723006066810289187000, m 9791506386970971927000,
  m 9859520535676753763000, m 9927047017684755597000, m 9994084358459280707000, m 10060631104184405040000,
  m 10126685821777558550000, m 10192247098903220000000, m 10257313543983421910000, m 10321883786209190520000,
  m 10385956475551743650000, m 10449530282770510310000, m 10512603899422048360000, m 10575176037868819680000,
  m 10637245431284929750000, m 10698810833663427300000, m 10759871019822015090000, m 10820424785406117780000,
  m 10880470946894768880000, m 10940008341602365730000, m 10999035827681546110000, m 11057552284125002520000,
  m 11115556610766491840000, m 11173047728279585170000, m 11230024578178524960000, m 11286486122815417980000,
  m 11342431345379149430000, m 11397859249890939370000, m 11452768861202253970000, m 11507159224988893200000,
  m 11561029407745805300000, m 11614378496781228710000, m 11667205600210305430000, m 11719509846946175310000,
  m 11771290386693257420000, m 11822546389936828100000, m 11873277047933217450000, m 11923481572700051470000,
  m 11973159197003792260000, m 12022309174347998090000, m 12070930778961187120000, m 12119023305782087200000,
  m 12166586070445375200000, m 12213618409267531560000, m 12260119679229643830000, m 12306089257961790770000,
  m 12351526543725813710000, m 12396430955396036360000, m 12440801932441851540000, m 12484638934907370350000,
  m 12527941443391255990000, m 12570708959026120570000, m 12612941003456935900000, m 12654637118817572410000,
  m 12695796867708969360000, m 12736419833174142340000, m 12776505618674794970000, m 12816053848064661090000,
  m 12855064165565054290000, m 12893536235736985300000, m 12931469743454080620000, m 12968864393874518690000,
  m 13005719912412622010000, m 13042036044708533440000, m 13077812556599103630000, m 13113049234086083260000,
  m 13147745883304642200000, m 13181902330491797210000, m 13215518421952549270000, m 13248594024027032220000,
  m 13281129023056099550000, m 13313123325345625310000, m 13344576857131470850000, m 13375489564543352080000,
  m 13405861413567092310000, m 13435692390007539110000, m 13464982499450537650000, m 13493731767222694930000,
  m 13521940238353087100000, m 13549607977531997120000, m 13576735069070690840000, m 13603321616858978980000,
  m 13629367744324069930000, m 13654873594386486780000, m 13679839329417395520000, m 13704265131193778330000,
  m 13728151200854291300000, m 13751497758853014790000, m 13774305044914270920000, m 13796573317985318540000,
  m 13818302856188861760000, m 13839493956775766880000, m 13860146936075834520000, m 13880262129448815720000,
  m 13899839891235082410000, m 13918880594704514110000, m 13937384632005733470000, m 13955352414114743960000,
  m 13972784370782181690000, m 13989680950481009470000, m 14006042620353107970000, m 14021869866154664100000,
  m 14037163192202047360000, m 14051923121316886460000, m 14066150194769638340000, m 14079844972223738190000,
  m 14093008031678814340000, m 14105639969412509000000, m 14117741399923205230000, m 14129312955870890540000,
  m 14140355288018401560000, m 14150869065171113600000, m 14160854974117412910000, m 14170313719567090240000,
  m 14179246024090530670000, m 14187652628056317760000, m 14195534289569310380000, m 14202891784406891600000,
  m 14209725905956203570000, m 14216037465149529040000, m 14221827290399725480000, m 14227096227535398190000,
  m 14231845139734875830000, m 14236074907460257040000, m 14239786428390777720000, m 14242980617355427870000,
  m 14245658406265173760000, m 14247820744045107100000, m 14249468596565286620000, m 14250602946571958870000,
  m 14251224793617617110000, m 14251335153990702620000, m 14250935060645184070000, m 14250025563129211930000,
  m 14248607727513545930000, m 14246682636319408100000, m 14244251388446139440000, m 14241315099097616470000,
  m 14237874899709230200000, m 14233931937873613180000, m 14229487377266397090000, m 14224542397571116500000,
  m 14219098194404075330000, m 14213155979238491670000, m 14206716979328100480000, m 14199782437630705500000,
  m 14192353612730992530000, m 14184431778762936090000, m 14176018225331974060000, m 14167114257436533470000,
  m 14157721195389176810000, m 14147840374737473910000, m 14137473146184284250000, m 14126620875507822510000,
  m 14115284943481100630000, m 14103466745791114070000, m 14091167692957674070000, m 14078389210251611350000,
  m 14065132737612854470000, m 14051399729568044030000, m 14037191655147608140000, m 14022509997802704060000,
  m 14007356255321590620000, m 13991731939745816040000, m 13975638577285804310000, m 13959077708236270440000,
  m 13942050886891161480000, m 13924559681458407680000, m 13906605673974052010000, m 13888190460216410120000,
  m 13869315649619376580000, m 13849982865185922410000, m 13830193743400879540000, m 13809949934143608280000,
  m 13789253100600219370000, m 13768104919175536670000, m 13746507079404702570000, m 13724461283864539320000,
  m 13701969248084324350000, m 13679032700456768720000, m 13655653382148274020000, m 13631833047008897870000,
  m 13607573461482317640000, m 13582876404515335230000, m 13557743667466771820000, m 13532177054016810000000,
  m 13506178380075361680000, m 13479749473690497110000, m 13452892174956590910000, m 13425608335922127610000,
  m 13397899820497083680000, m 13369768504360595880000, m 13341216274867621580000, m 13312245030956041290000,
  m 13282856683052927710000, m 13253053152981128110000, m 13222836373865028550000, m 13192208290036682330000,
  m 13161170856941072700000, m 13129726041041851650000, m 13097875819726077540000, m 13065622181209525240000,
  m 13032967124441062920000, m 12999912659007272740000, m 12966460805036851310000, m 12932613593104459630000,
  m 12898373064134827050000, m 12863741269306313230000, m 12828720269954378530000, m 12793312137474786810000,
  m 12757518953227152080000, m 12721342808437301020000, m 12684785804100570600000, m 12647850050883911420000,
  m 12610537669028797390000, m 12572850788252914020000, m 12534791547652800430000, m 12496362095605532570000,
  m 12457564589670609680000, m 12418401196491322390000, m 12378874091696793340000, m 12338985459802599950000,
  m 12298737494112572730000, m 12258132396619975380000, m 12217172377907778510000, m 12175859657050200520000,
  m 12134196461513226990000, m 12092185027054755630000, m 12049827597625639150000, m 12007126425270184270000,
  m 11964083770025681760000, m 11920701899823390000000, m 11876983090388127670000, m 11832929625138149410000,
  m 11788543795085748140000, m 11743827898736193910000, m 11698784241988210920000, m 11653415138033228000000,
  m 11607722907254998460000, m 11561709877128891230000, m 11515378382122134140000, m 11468730763592249550000,
  m 11421769369687119710000, m 11374496555243742620000, m 11326914681687994170000, m 11279026116933050200000,
  m 11230833235279228300000, m 11182338417312933340000, m 11133544049805630210000, m 11084452525612704640000,
  m 11035066243573081390000, m 10985387608407260050000, m 10935419030617138190000, m 10885162926384894280000,
  m 10834621717471286060000, m 10783797831115460180000, m 10732693699933325140000]

/-- src/mid_qual_coeffs.h:20160-20650 -/
def row41 : List ℤ := [
  m 10681311761816271580000, m 10629654459830997050000, m 10577724242117853640000, m 10525523561789634270000,
  m 10473054876831211160000, m 10420320649997947790000, m 10367323348714713940000, m 10314065444975720620000,
  m 10260549415242532270000, m 10206777740344159210000, m 10152752905375328940000, m 10098477399596641360000,
  m 10043953716332616420000, m 9989184352872384638000, m 9934171810367785647000, m 9878918593733770646000,
  m 9823427211546985468000, m 9767700175946281480000, m 9711740002531117362000, m 9655549210262264826000,
  m 9599130321361358981000, m 9542485861210113265000, m 9485618358251031944000, m 9428530343887141734000,
  m 9371224352381416804000, m 9313702920757855496000, m 9255968588701730333000, m 9198023898459097724000,
  m 9139871394738386293000, m 9081513624610204732000, m 9022953137407908612000, m 8964192484629383517000,
  m 8905234219837349270000, m 8846080898560023298000, m 8786735078193281547000, m 8727199317901135502000,
  m 8667476178517132467000, m 8607568222447024706000, m 8547478013569068580000, m 8487208117137132451000,
  m 8426761099681565024000, m 8366139528912553975000, m 8305345973620928226000, m 8244383003582358516000,
  m 8183253189458508661000, m 8121959102700900701000, m 8060503315452955536000, m 7998888400454152848000,
  m 7937116930942007362000, m 7875191480556620091000, m 7813114623244291074000, m 7750888933160513767000,
  m 7688516984574959975000, m 7626001351775381423000, m 7563344608971258059000, m 7500549330199428426000,
  m 7437618089228823014000, m 7374553459464549639000, m 7311358013854282751000, m 7248034324792887525000,
  m 7184584964027791029000, m 7121012502566128785000, m 7057319510579317183000, m 6993508557310410953000,
  m 6929582210980173986000, m 6865543038693727828000, m 6801393606347233218000, m 6737136478536295334000,
  m 6672774218461890616000, m 6608309387839307337000, m 6543744546804962664000, m 6479082253825755730000,
  m 6414325065606069349000, m 6349475536997549143000, m 6284536220907820503000, m 6219509668209529949000,
  m 6154398427649328057000, m 6089205045758714153000, m 6023932066762442414000, m 5958582032490061125000,
  m 5893157482286228840000, m 5827660952920657831000, m 5762094978500356398000, m 5696462090380049205000,
  m 5630764817073703838000, m 5565005684167559159000, m 5499187214231509565000, m 5433311926731222782000,
  m 5367382337942021172000, m 5301400960861037644000, m 5235370305120476093000, m 5169292876902587077000,
  m 5103171178852093930000, m 5037007709991598732000, m 4970804965635773639000, m 4904565437306151908000,
  m 4838291612646055295000, m 4771985975337445917000, m 4705651005015213287000, m 4639289177184708887000,
  m 4572902963137025930000, m 4506494829867235268000, m 4440067239989918422000, m 4373622651658005732000,
  m 4307163518480360894000, m 4240692289439770390000, m 4174211408811092995000, m 4107723316081253280000,
  m 4041230445866843946000, m 3974735227835052750000, m 3908240086623402752000, m 3841747441759117315000,
  m 3775259707580980045000, m 3708779293159354132000, m 3642308602217397696000, m 3575850033053969811000,
  m 3509405978464784870000, m 3442978825664532561000, m 3376570956210725373000, m 3310184745925999836000,
  m 3243822564821433787000, m 3177486777021876599000, m 3111179740688543924000, m 3044903807945070447000,
  m 2978661324801340447000, m 2912454631080273234000, m 2846286060341835399000, m 2780157939811371242000,
  m 2714072590304354054000, m 2648032326154760168000, m 2582039455141228437000, m 2516096278416180939000,
  m 2450205090432364896000, m 2384368178872734856000, m 2318587824579320990000, m 2252866301481645491000,
  m 2187205876527602984000, m 2121608809613320700000, m 2056077353512826362000, m 1990613753810302492000,
  m 1925220248831316651000, m 1859899069573744208000, m 1794652439641236446000, m 1729482575174964525000,
  m 1664391684786535112000, m 1599381969492874299000, m 1534455622648481904000, m 1469614829880963588000,
  m 1404861769025376054000, m 1340198610059256238000, m 1275627515037949703000, m 1211150638032036296000,
  m 1146770125062153075000, m 1082488114037271026000, m 1018306734690843806000, m 954228108519971087800,
  m 890254348721801525500, m 826387560134336163000, m 762629839173709879500, m 698983273775124287700,
  m 635449943331615616500, m 572031918635871276700, m 508731261819447200000, m 445550026295472519000,
  m 382490256700277720800, m 319553988834724857100, m 256743249607955239100, m 194060056980221304500,
  m 131506419905578353500, m 69084338277141736010, m 6795802871439582754, p 55357204707526802320,
  p 117372712081657406300, p 179248756153773677400, p 240983383161423271800, p 302574648728726070300,
  p 364020617920755109600, p 425319365294603166700, p 486468974951635717700, p 547467540588976777700,
  p 608313165550668684200, p 669003962876734945800, p 729538055354748242900, p 789913575567950369800,
  p 850128665945428983900, p 910181478809299882200, p 970070176424381989400, p 1029792931044428099000,
  p 1089347924959520071000, p 1148733350542840724000, p 1207947410297249631000, p 1266988316899775013000,
  p 1325854293248425644000, p 1384543572505563178000, p 1443054398142295566000, p 1501385023983092615000,
  p 1559533714247895589000, p 1617498743595774353000, p 1675278397167371552000, p 1732870970625587304000,
  p 1790274770197762918000, p 1847488112716836534000, p 1904509325660705590000, p 1961336747192977998000,
  p 2017968726202504238000, p 2074403622341018644000, p 2130639806063139699000, p 2186675658663011402000,
  p 2242509572312909764000, p 2298139950098927877000, p 2353565206059147038000, p 2408783765217655280000,
  p 2463794063621745248000, p 2518594548375641360000, p 2573183677676146341000, p 2627559920845437063000,
  p 2681721758366097413000, p 2735667681912958676000, p 2789396194385899199000, p 2842905809942093048000,
  p 2896195054027954587000, p 2949262463409156057000, p 3002106586202714027000, p 3054725981905856279000,
  p 3107119221425796288000, p 3159284887109610613000, p 3211221572771865301000, p 3262927883723475145000,
  p 3314402436799513898000, p 3365643860385298645000, p 3416650794443830289000, p 3467421890542230295000,
  p 3517955811876505811000, p 3568251233297473966000, p 3618306841335610423000, p 3668121334224060723000,
  p 3717693421923770064000, p 3767021826145546808000, p 3816105280373762891000, p 3864942529887502117000,
  p 3913532331783751496000, p 3961873454996910956000, p 4009964680321029224000, p 4057804800428972187000,
  p 4105392619893167571000, p 4152726955203748390000, p 4199806634788781787000, p 4246630499031346909000,
  p 4293197400287546220000, p 4339506202904529509000, p 4385555783236483340000, p 4431345029661199007000,
  p 4476872842596713348000, p 4522138134515610052000, p 4567139829960088368000, p 4611876865557067402000,
  p 4656348190031120309000, p 4700552764218612118000, p 4744489561080753360000, p 4788157565715010445000,
  p 4831555775368315145000, p 4874683199447634714000, p 4917538859531329756000, p 4960121789379774322000,
  p 5002431034945596540000, p 5044465654382218400000, p 5086224718054219202000, p 5127707308544807235000,
  p 5168912520664920298000, p 5209839461459900318000, p 5250487250217348738000, p 5290855018473898540000,
  p 5330941910020542934000, p 5370747080908983020000, p 5410269699457119104000, p 5449508946253051232000,
  p 5488464014160028408000, p 5527134108320382212000, p 5565518446157890022000, p 5603616257381895830000,
  p 5641426783988786620000, p 5678949280264292063000, p 5716183012785083714000, p 5753127260419931215000,
  p 5789781314329349924000, p 5826144477966822343000, p 5862216067077408131000, p 5897995409697789000000,
  p 5933481846153965632000, p 5968674729060630875000, p 6003573423318008614000, p 6038177306109331310000,
  p 6072485766897830489000, p 6106498207423363857000, p 6140214041697550793000, p 6173632696000366427000,
  p 6206753608874221726000, p 6239576231118649210000, p 6272100025784989517000, p 6304324468169304273000,
  p 6336249045806109748000, p 6367873258461242293000, p 6399196618123435446000, p 6430218648996748306000,
  p 6460938887492114683000, p 6491356882217805509000, p 6521472193970363887000, p 6551284395724859137000,
  p 6580793072623731366000, p 6609997821966972667000, p 6638898253200128043000, p 6667493987903296694000,
  p 6695784659778339270000, p 6723769914637296393000, p 6751449410388255067000, p 6778822817023021803000,
  p 6805889816602504527000, p 6832650103243157514000, p 6859103383101530656000, p 6885249374360169753000,
  p 6911087807211246755000, p 6936618423840737185000, p 6961840978412596719000, p 6986755237051362281000,
  p 7011360977825115667000, p 7035657990728420070000, p 7059646077663543051000, p 7083325052422180111000,
  p 7106694740667073228000, p 7129754979912064077000, p 7152505619502967182000, p 7174946520597496080000,
  p 7197077556144200998000, p 7218898610862311168000, p 7240409581219900854000, p 7261610375412445021000,
  p 7282500913340772762000, p 7303081126588752214000, p 7323350958399773533000, p 7343310363654294057000,
  p 7362959308845503041000, p 7382297772055809725000, p 7401325742931882959000, p 7420043222660490441000,
  p 7438450223942713340000, p 7456546770968550549000, p 7474332899390909697000, p 7491808656299555800000,
  p 7508974100193796991000, p 7525829300956125702000, p 7542374339824161545000, p 7558609309362868630000,
  p 7574534313436769495000, p 7590149467180819882000, p 7605454896971666366000, p 7620450740398671051000,
  p 7635137146233752115000, p 7649514274401409010000, p 7663582295948651098000, p 7677341393013908149000,
  p 7690791758796076377000, p 7703933597523239201000, p 7716767124420317365000, p 7729292565677532207000,
  p 7741510158417430666000, p 7753420150662288069000, p 7765022801300834975000, p 7776318380054873924000,
  p 7787307167445022026000, p 7797989454756927905000, p 7808365544006380714000, p 7818435747904722396000,
  p 7828200389823384105000, p 7837659803758624226000, p 7846814334295414278000, p 7855664336571285852000,
  p 7864210176239872622000, p 7872452229434189771000, p 7880390882729137536000, p 7888026533104565492000,
  p 7895359587906979881000, p 7902390464811627035000, p 7909119591784222731000, p 7915547407041981898000,
  p 7921674359014805876000, p 7927500906306058010000, p 7933027517652515938000, p 7938254671884784655000,
  p 7943182857887076001000, p 7947812574556493482000, p 7952144330762393325000, p 7956178645305289824000,
  p 7959916046875313458000, p 7963357074010679173000, p 7966502275055610863000, p 7969352208118250615000,
  p 7971907441027914032000, p 7974168551292653886000, p 7976136126055693827000, p 7977810762052583757000,
  p 7979193065567171062000, p 7980283652388002130000, p 7981083147763917498000, p 7981592186359951925000,
  p 7981811412212350170000, p 7981741478683835179000, p 7981383048418229145000, p 7980736793295216863000,
  p 7979803394384428077000, p 7978583541899702779000, p 7977077935152724632000, p 7975287282506547654000,
  p 7973212301329141546000, p 7970853717946159439000, p 7968212267593958062000, p 7965288694372211329000,
  p 7962083751196088549000, p 7958598199748532598000, p 7954832810432112863000, p 7950788362320739290000,
  p 7946465643111005417000, p 7941865449073526336000, p 7936988585003824332000, p 7931835864173229769000,
  p 7926408108279326282000, p 7920706147396478961000, p 7914730819925778099000, p 7908482972545120151000,
  p 7901963460158860093000, p 7895173145847394328000, p 7888112900816436968000, p 7880783604346182605000,
  p 7873186143740221760000, p 7865321414274280138000, p 7857190319144737663000, p 7848793769417027229000,
  p 7840132683973769179000, p 7831207989462741459000, p 7822020620244714249000, p 7812571518341108405000,
  p 7802861633381318483000, p 7792891922550071335000, p 7782663350534515349000, p 7772176889471106399000,
  p 7761433518892400628000, p 7750434225673647319000, p 7739180003979200518000, p 7727671855208759539000,
  p 7715910787943553576000, p 7703897817892231545000, p 7691633967836682467000, p 7679120267577649179000,
  p 7666357753880381000000, p 7653347470419756169000, p 7640090467725670236000, p 7626587803128003486000,
  p 7612840540701673069000, p 7598849751211248895000, p 7584616512055740648000, p 7570141907213180649000,
  p 7555427027184871301000, p 7540472968939712158000, p 7525280835858423649000, p 7509851737677451477000,
  p 7494186790432926914000, p 7478287116404581368000, p 7462153844059151025000, p 7445788107994190615000,
  p 7429191048881450104000, p 7412363813410005752000, p 7395307554229899386000, p 7378023429894975533000,
  p 7360512604806010785000, p 7342776249153693231000, p 7324815538861361338000, p 7306631655527773321000,
  p 7288225786369923953000, p 7269599124165388720000, p 7250752867194972919000, p 7231688219185107488000,
  p 7212406389250042391000, p 7192908591834103542000, p 7173196046654075077000, p 7153269978641006499000,
  p 7133131617882447572000, p 7112782199564273251000, p 7092222963912678018000, p 7071455156135774655000,
  p 7050480026365592816000, p 7029298829599727774000, p 7007912825642927336000]

/-- src/mid_qual_coeffs.h:20651-21141 -/
def row42 : List ℤ := [
  p 6986323279048588970000, p 6964531459060604215000, p 6942538639554406041000, p 6920346098978726856000,
  p 6897955120296966047000, p 6875366990928347438000, p 6852583002689468096000, p 6829604451735377868000,
  p 6806432638500796990000, p 6783068867641536980000, p 6759514447975525126000, p 6735770692423790005000,
  p 6711838917951935737000, p 6687720445510890343000, p 6663416599978057283000, p 6638928710098572867000,
  p 6614258108426013958000, p 6589406131263696043000, p 6564374118605419042000, p 6539163414076766233000,
  p 6513775364875601883000, p 6488211321713700508000, p 6462472638757092042000, p 6436560673567515766000,
  p 6410476787043006872000, p 6384222343359264847000, p 6357798709910185828000, p 6331207257249174231000,
  p 6304449359030219754000, p 6277526391948508502000, p 6250439735681843043000, p 6223190772831578795000,
  p 6195780888863405414000, p 6168211472048783785000, p 6140483913406089933000, p 6112599606641336272000,
  p 6084559948089802566000, p 6056366336656928272000, p 6028020173759440364000, p 5999522863267125751000,
  p 5970875811443499998000, p 5942080426887649208000, p 5913138120475334963000, p 5884050305300427087000,
  p 5854818396616257621000, p 5825443811777592291000, p 5795927970181632121000, p 5766272293210054361000,
  p 5736478204170354601000, p 5706547128237925818000, p 5676480492397269202000, p 5646279725384609373000,
  p 5615946257629076408000, p 5585481521195239741000, p 5554886949724689146000, p 5524163978378601671000,
  p 5493314043779334476000, p 5462338583953167105000, p 5431239038272593975000, p 5400016847398361065000,
  p 5368673453222341168000, p 5337210298810053389000, p 5305628828342853989000, p 5273930487061187725000,
  p 5242116721207376697000, p 5210188977968122910000, p 5178148705418016255000, p 5145997352462253910000,
  p 5113736368779790870000, p 5081367204767137624000, p 5048891311481110042000, p 5016310140582780355000,
  p 4983625144280901290000, p 4950837775275528399000, p 4917949486701720319000, p 4884961732073997981000,
  p 4851875965229655230000, p 4818693640273513643000, p 4785416211521631263000, p 4752045133446260703000,
  p 4718581860619609545000, p 4685027847659085591000, p 4651384549171832295000, p 4617653419699547115000,
  p 4583835913663273590000, p 4549933485309034540000, p 4515947588652335305000, p 4481879677424123050000,
  p 4447731205016297133000, p 4413503624426844239000, p 4379198388206215267000, p 4344816948402852639000,
  p 4310360756509111484000, p 4275831263408076131000, p 4241229919319490609000, p 4206558173746063535000,
  p 4171817475420622575000, p 4137009272252486246000, p 4102135011274343091000, p 4067196138589956718000,
  p 4032194099320640083000, p 3997130337553349324000, p 3962006296287599347000, p 3926823417383733838000,
  p 3891583141510677728000, p 3856286908093506697000, p 3820936155262290624000, p 3785532319800362317000,
  p 3750076837092473592000, p 3714571141074038096000, p 3679016664179635512000, p 3643414837291965966000,
  p 3607767089691693822000, p 3572074849006406319000, p 3536339541160087212000, p 3500562590323376452000,
  p 3464745418863073052000, p 3428889447292212655000, p 3392996094221053551000, p 3357066776306756140000,
  p 3321102908204742918000, p 3285105902519000086000, p 3249077169753801753000, p 3213018118264044585000,
  p 3176930154207820734000, p 3140814681497106125000, p 3104673101750311783000, p 3068506814243705649000,
  p 3032317215864359476000, p 2996105701061722684000, p 2959873661800952965000, p 2923622487515715790000,
  p 2887353565060751842000, p 2851068278665655691000, p 2814768009888235623000, p 2778454137567654932000,
  p 2742128037778975468000, p 2705791083787162907000, p 2669444646000909474000, p 2633090091927805150000,
  p 2596728786128565284000, p 2560362090171934556000, p 2523991362590539620000, p 2487617958835407249000,
  p 2451243231232216775000, p 2414868528936883375000, p 2378495197891515323000, p 2342124580780538110000,
  p 2305758016987929438000, p 2269396842553025282000, p 2233042390128217790000, p 2196695988935488520000,
  p 2160358964724540870000, p 2124032639729546340000, p 2087718332627769516000, p 2051417358497473918000,
  p 2015131028776209865000, p 1978860651219132405000, p 1942607529858466978000, p 1906372964961660906000,
  p 1870158252991403437000, p 1833964686565078070000, p 1797793554414028945000, p 1761646141344148619000,
  p 1725523728196039985000, p 1689427591804621271000, p 1653359004961335031000, p 1617319236374228328000,
  p 1581309550629114583000, p 1545331208151615267000, p 1509385465168393120000, p 1473473573669061282000,
  p 1437596781369137890000, p 1401756331671624870000, p 1365953463630407435000, p 1330189411912970872000,
  p 1294465406763569214000, p 1258782673966552110000, p 1223142434810857409000, p 1187545906053100431000,
  p 1151994299882583884000, p 1116488823885169156000, p 1081030681008778353000, p 1045621069527533895000,
  p 1010261183007808795000, p 974952210273612025200, p 939695335372332809400, p 904491737540578196400,
  p 869342591171189491000, p 834249065778935725800, p 799212325968140802600, p 764233531399748840400,
  p 729313836758231974200, p 694454391719933769000, p 659656340920519438100, p 624920823923102522300,
  p 590248975187388962100, p 555641924037934644200, p 521100794633005293300, p 486626705934440840400,
  p 452220771676728979100, p 417884100336763389400, p 383617795104683305000, p 349422953853358516300,
  p 315300669109780938500, p 281252028025340795600, p 247278112347765055000, p 213379998391618657000,
  p 179558757011202373300, p 145815453571604290600, p 112151147921740856200, p 78566894366294068330,
  p 45063741639301649880, p 11642732876409020350, m 21695094410984029140, m 54948708362107495640,
  m 88117082793326757570, m 121199197223322167700, m 154194036898714248000, m 187100592819727018400,
  m 219917861764448210600, m 252644846313533659900, m 285280554875022961200, m 317824001707762074100,
  m 350274206945656682400, m 382630196621244194000, m 414891002688193001100, m 447055663045098758700,
  m 479123221557504753500, m 511092728080492113600, m 542963238480842901800, m 574733814658989968900,
  m 606403524569820347400, m 637971442244764706300, m 669436647812040167600, m 700798227517924174500,
  m 732055273746430748700, m 763206885040332684100, m 794252166119876421200, m 825190227903225188100,
  m 856020187525004574800, m 886741168355865288600, m 917352300020443958200, m 947852718416591628700,
  m 978241565732772559600, m 1008517990465944349000, m 1038681147439538114000, m 1068730197820151922000,
  m 1098664309134666572000, m 1128482655287342322000, m 1158184416575597630000, m 1187768779706177104000,
  m 1217234937811407552000, m 1246582090464109145000, m 1275809443693296022000, m 1304916209999166868000,
  m 1333901608367123094000, m 1362764864282952332000, m 1391505209746321877000, m 1420121883284817199000,
  m 1448614129967521156000, m 1476981201418413627000, m 1505222355828639092000, m 1533336857969997116000,
  m 1561323979206647705000, m 1589182997507807699000, m 1616913197458892217000, m 1644513870273843008000,
  m 1671984313805741992000, m 1699323832557871387000, m 1726531737694502791000, m 1753607347051480018000,
  m 1780549985145770232000, m 1807358983186058644000, m 1834033679081681105000, m 1860573417451919868000,
  m 1886977549635434247000, m 1913245433698379631000, m 1939376434443257715000, m 1965369923417109637000,
  m 1991225278918809772000, m 2016941886007084815000, m 2042519136507907522000, m 2067956429021045552000,
  m 2093253168927218047000, m 2118408768394592793000, m 2143422646384379186000, m 2168294228657441437000,
  m 2193022947779355785000, m 2217608243126233845000, m 2242049560889237298000, m 2266346354080133576000,
  m 2290498082534893213000, m 2314504212918714869000, m 2338364218729418542000, m 2362077580301612546000,
  m 2385643784809561144000, m 2409062326271012712000, m 2432332705549490537000, m 2455454430357022809000,
  m 2478427015256509651000, m 2501249981664000792000, m 2523922857849917411000, m 2546445178941280258000,
  m 2568816486922377118000, m 2591036330635799574000, m 2613104265783507732000, m 2635019854926753987000,
  m 2656782667486659005000, m 2678392279744109655000, m 2699848274838937812000, m 2721150242769640409000,
  m 2742297780392589162000, m 2763290491420448306000, m 2784127986421131477000, m 2804809882816106797000,
  m 2825335804877958695000, m 2845705383728794205000, m 2865918257337238551000, m 2885974070516173984000,
  m 2905872474919186484000, m 2925613129038060233000, m 2945195698198377281000, m 2964619854556483474000,
  m 2983885277094919557000, m 3002991651618601905000, m 3021938670749757261000, m 3040726033923742634000,
  m 3059353447383513323000, m 3077820624174338705000, m 3096127284138582815000, m 3114273153909536676000,
  m 3132257966905441637000, m 3150081463323503814000, m 3167743390132937404000, m 3185243501068165559000,
  m 3202581556622106797000, m 3219757324038456415000, m 3236770577304444784000, m 3253621097143098854000,
  m 3270308671004735824000, m 3286833093059280555000, m 3303194164187289564000, m 3319391691971370151000,
  m 3335425490687220490000, m 3351295381294486329000, m 3367001191426838424000, m 3382542755382780959000,
  m 3397919914115302500000, m 3413132515222005517000, m 3428180412934294436000, m 3443063468107225638000,
  m 3457781548208192798000, m 3472334527305886231000, m 3486722286059021002000, m 3500944711704833794000,
  m 3515001698046942812000, m 3528893145443792553000, m 3542618960795974152000, m 3556179057533785431000,
  m 3569573355604762150000, m 3582801781460468103000, m 3595864268043344513000, m 3608760754773636919000,
  m 3621491187535421679000, m 3634055518662814576000, m 3646453706926192559000, m 3658685717517570987000,
  m 3670751522036407362000, m 3682651098474895134000, m 3694384431202714153000, m 3705951510952344381000,
  m 3717352334803400871000, m 3728586906167205056000, m 3739655234771104900000, m 3750557336642507061000,
  m 3761293234092410141000, m 3771862955699422448000, m 3782266536292831923000, m 3792504016936138129000,
  m 3802575444909667742000, m 3812480873693865985000, m 3822220362951472506000, m 3831793978510052178000,
  m 3841201792344222650000, m 3850443882557765432000, m 3859520333365148303000, m 3868431235073516535000,
  m 3877176684063824391000, m 3885756782772063181000, m 3894171639670522351000, m 3902421369248349229000,
  m 3910506091992418790000, m 3918425934367810389000, m 3926181028797873689000, m 3933771513644461453000,
  m 3941197533187918394000, m 3948459237606612617000, m 3955556782956647492000, m 3962490331151247412000,
  m 3969260049939681915000, m 3975866112886626037000, m 3982308699350665157000, m 3988587994463233517000,
  m 3994704189106805672000, m 4000657479893558878000, m 4006448069143105445000, m 4012076164860785823000,
  m 4017541980715251876000, m 4022845736016246665000, m 4027987655691876015000, m 4032967970266160446000,
  m 4037786915835942513000, m 4042444734047876313000, m 4046941672075414444000, m 4051277982595210511000,
  m 4055453923763708838000, m 4059469759193600331000, m 4063325757929795548000, m 4067022194425480766000,
  m 4070559348518076651000, m 4073937505404852174000, m 4077156955618562255000, m 4080217995002712699000,
  m 4083120924687068248000, m 4085866051062458423000, m 4088453685756021301000, m 4090884145605789132000,
  m 4093157752635610239000, m 4095274834029422082000, m 4097235722105901260000, m 4099040754292550230000,
  m 4100690273099827226000, m 4102184626095227053000, m 4103524165877049322000, m 4104709250048095536000,
  m 4105740241189356860000, m 4106617506833363074000, m 4107341419437490873000, m 4107912356357268775000,
  m 4108330699819289855000, m 4108596836894308286000, m 4108711159469973344000, m 4108674064223463474000,
  m 4108485952594177941000, m 4108147230756098998000, m 4107658309590143879000, m 4107019604656399062000,
  m 4106231536166276601000, m 4105294528954315550000, m 4104209012450240891000, m 4102975420650602327000,
  m 4101594192090507948000, m 4100065769815052958000, m 4098390601350927137000, m 4096569138677556423000,
  m 4094601838198403745000, m 4092489160712084351000, m 4090231571383399822000, m 4087829539714188283000,
  m 4085283539514210181000, m 4082594048871844340000, m 4079761550124650172000, m 4076786529829977331000,
  m 4073669478735326335000, m 4070410891748737143000, m 4067011267909015096000, m 4063471110355881481000,
  m 4059790926300069875000, m 4055971226993279349000, m 4052012527698073455000, m 4047915347657714845000,
  m 4043680210065899087000, m 4039307642036353807000, m 4034798174572495426000, m 4030152342536833486000,
  m 4025370684620433415000, m 4020453743312244618000, m 4015402064868365888000, m 4010216199281237122000,
  m 4004896700248742947000, m 3999444125143327358000, m 3993859034980878811000, m 3988141994389724580000,
  m 3982293571579427760000, m 3976314338309608828000, m 3970204869858647776000, m 3963965744992346437000,
  m 3957597545932555227000, m 3951100858325662673000, m 3944476271211105274000]

/-- src/mid_qual_coeffs.h:21142-21632 -/
def row43 : List ℤ := [
  m 3937724376989811280000, m 3930845771392550467000, m 3923841053448249171000, m 3916710825452307871000,
  m 3909455692934759520000, m 3902076264628437208000, m 3894573152437140117000, m 3886946971403699534000,
  m 3879198339677958465000, m 3871327878484807999000, m 3863336212092142355000, m 3855223967778669942000,
  m 3846991775801908213000, m 3838640269365885454000, m 3830170084589036544000, m 3821581860471858149000,
  m 3812876238864704958000, m 3804053864435430906000, m 3795115384637082487000, m 3786061449675465866000,
  m 3776892712476813935000, m 3767609828655295827000, m 3758213456480615359000, m 3748704256845488784000,
  m 3739082893233138626000, m 3729350031684836229000, m 3719506340767251175000, m 3709552491539975620000,
  m 3699489157522938933000, m 3689317014663700367000, m 3679036741304984408000, m 3668649018151976825000,
  m 3658154528239666051000, m 3647553956900269258000, m 3636847991730502154000, m 3626037322558885636000,
  m 3615122641413206163000, m 3604104642487703403000, m 3592984022110450563000, m 3581761478710651300000,
  m 3570437712785945513000, m 3559013426869655011000, m 3547489325498259558000, m 3535866115178559951000,
  m 3524144504355078260000, m 3512325203377294172000, m 3500408924467105798000, m 3488396381685989356000,
  m 3476288290902484117000, m 3464085369759508796000, m 3451788337641755436000, m 3439397915642939731000,
  m 3426914826533382109000, m 3414339794727210191000, m 3401673546249939033000, m 3388916808705897197000,
  m 3376070311245557120000, m 3363134784533203014000, m 3350110960714313751000, m 3336999573383019428000,
  m 3323801357549799342000, m 3310517049609024117000, m 3297147387306433020000, m 3283693109706965349000,
  m 3270154957162217423000, m 3256533671278162159000, m 3242829994883037630000, m 3229044671994862502000,
  m 3215178447789392355000, m 3201232068567857892000, m 3187206281724854770000, m 3173101835716092391000,
  m 3158919480026606032000, m 3144659965138442111000, m 3130324042498882593000, m 3115912464488310257000,
  m 3101425984388505097000, m 3086865356350565068000, m 3072231335363243145000, m 3057524677221170464000,
  m 3042746138493111637000, m 3027896476490210342000, m 3012976449234560583000, m 2997986815427398910000,
  m 2982928334417757002000, m 2967801766171014298000, m 2952607871237327806000, m 2937347410720479505000,
  m 2922021146246434056000, m 2906629839932048135000, m 2891174254354167709000, m 2875655152518266637000,
  m 2860073297827402068000, m 2844429454051371428000, m 2828724385295646222000, m 2812958855970459557000,
  m 2797133630760250285000, m 2781249474592670910000, m 2765307152608114304000, m 2749307430128918138000,
  m 2733251072629106740000, m 2717138845703576465000, m 2700971515038112421000, m 2684749846378775849000,
  m 2668474605501863680000, m 2652146558183563577000, m 2635766470170120165000, m 2619335107147504898000,
  m 2602853234711754237000, m 2586321618339091833000, m 2569741023356006239000, m 2553112214909729275000,
  m 2536435957938605962000, m 2519713017142377650000, m 2502944156952997066000, m 2486130141505246865000,
  m 2469271734607292949000, m 2452369699711744741000, m 2435424799886390622000, m 2418437797785154436000,
  m 2401409455619453501000, m 2384340535129185187000, m 2367231797553921440000, m 2350084003604543773000,
  m 2332897913434455572000, m 2315674286611129420000, m 2298413882088063103000, m 2281117458176151167000,
  m 2263785772515834051000, m 2246419582048767803000, m 2229019642990194706000, m 2211586710800637137000,
  m 2194121540158659525000, m 2176624884932774387000, m 2159097498154223769000, m 2141540131989234688000,
  m 2123953537712024183000, m 2106338465677124217000, m 2088695665292612462000, m 2071025884993028851000,
  m 2053329872212256970000, m 2035608373356963218000, m 2017862133779817441000, m 2000091897752724998000,
  m 1982298408440581863000, m 1964482407874919200000, m 1946644636927417487000, m 1928785835284053380000,
  m 1910906741418868367000, m 1893008092568010602000, m 1875090624704293209000, m 1857155072511081739000,
  m 1839202169357048566000, m 1821232647270617898000, m 1803247236914603078000, m 1785246667560922219000,
  m 1767231667065877552000, m 1749202961844742955000, m 1731161276847284484000, m 1713107335532735218000,
  m 1695041859845541729000, m 1676965570190475725000, m 1658879185408613455000, m 1640783422753074155000,
  m 1622678997864840210000, m 1604566624748703761000, m 1586447015749716848000, m 1568320881529058390000,
  m 1550188931040788845000, m 1532051871508355421000, m 1513910408401046257000, m 1495765245411073946000,
  m 1477617084430297796000, m 1459466625527239170000, m 1441314566924590222000, m 1423161604976310333000,
  m 1405008434145023465000, m 1386855746979858294000, m 1368704234093967956000, m 1350554584142346890000,
  m 1332407483800186605000, m 1314263617740582408000, m 1296123668613115753000, m 1277988317022164265000,
  m 1259858241505384357000, m 1241734118512338464000, m 1223616622383669684000, m 1205506425329633937000,
  m 1187404197409560689000, m 1169310606510773263000, m 1151226318328355978000, m 1133151996344209143000,
  m 1115088301807099095000, m 1097035893712385744000, m 1078995428781933911000, m 1060967561444086931000,
  m 1042952943814242065000, m 1024952225674773075000, m 1006966054455933857000, m 988995075216487648800,
  m 971039930624288589900, m 953101260937561971800, m 935179703985777071400, m 917275895150873936000,
  m 899390467348971494900, m 881524051011689636200, m 863677274067765732600, m 845850761925185105400,
  m 828045137452933499300, m 810261020963099488100, m 792499030193544074800, m 774759780289881230200,
  m 757043883788447660300, m 739351950598718931600, m 721684587986567653300, m 704042400556823068700,
  m 686425990237040316000, m 668835956260346952000, m 651272895149320951000, m 633737400699309449100,
  m 616230063962600981000, m 598751473231936078100, m 581302214024976918700, m 563882869068537057700,
  m 546494018282744768300, m 529136238765899893700, m 511810104779114280500, m 494516187730950518900,
  m 477255056162773566100, m 460027275733893101000, m 442833409206673213700, m 425674016432335445500,
  m 408549654336380875300, m 391460876904349907300, m 374408235168147824500, m 357392277191719396700,
  m 340413548057648766200, m 323472589853459696100, m 306569941658168551200, m 289706139528945911700,
  m 272881716488371692100, m 256097202511055937500, m 239353124511205651300, m 222650006329681601700,
  m 205988368721875692600, m 189368729344962905600, m 172791602746097419400, m 156257500350331591000,
  m 139766930448732030000, m 123320398186575268600, m 106918405552134368500, m 90561451364873372670,
  m 74250031264589124110, m 57984637700315094340, m 41765759919189636770, m 25593883955989392450,
  m 9469492622430668399, p 6606934503293871912, p 22634921086857638810, p 38613994047558738350,
  p 54543683568696163960, p 70423523107012858090, p 86253049402637843270, p 102031802488215490300,
  p 117759325698644928000, p 133435165679893461100, p 149058872398074777400, p 164629999148330883200,
  p 180148102563631531100, p 195612742622995415900, p 211023482660281688500, p 226379889372054206600,
  p 241681532825677952500, p 256927986467440225700, p 272118827129987222000, p 287253635040132247700,
  p 302331993826317497300, p 317353490525576982500, p 332317715590873743000, p 347224262898124767300,
  p 362072729752736328100, p 376862716896464843700, p 391593828513932519800, p 406265672238627201600,
  p 420877859159465291200, p 435430003826482008600, p 449921724256975345400, p 464352641940878477400,
  p 478722381846741934400, p 493030572426609122000, p 507276845621691654000, p 521460836867111996200,
  p 535582185097119494600, p 549640532749532957900, p 563635525770748210000, p 577566813619869069900,
  p 591434049273058560100, p 605236889227886620500, p 618974993507086593700, p 632648025662466823500,
  p 646255652778807747100, p 659797545477118101900, p 673273377918047621200, p 686682827805338905000,
  p 700025576388607488000, p 713301308466488355700, p 726509712389437399400, p 739650480062078862600,
  p 752723306945881541400, p 765727892061541487900, p 778663937990924257400, p 791531150879268993400,
  p 804329240437100710800, p 817057919941637958300, p 829716906238735806700, p 842305919743996202700,
  p 854824684444319415800, p 867272927898703108200, p 879650381239629668400, p 891956779173422918600,
  p 904191859981318869800, p 916355365519704796700, p 928447041220755042300, p 940466636092393007000,
  p 952413902718714665000, p 964288597259655680600, p 976090479450819883700, p 987819312603328075000,
  p 999474863603100905800, p 1011056902910284379000, p 1022565204558676830000, p 1033999546154531647000,
  p 1045359708875537655000, p 1056645477469797381000, p 1067856640254224891000, p 1078992989113237127000,
  p 1090054319497168894000, p 1101040430420195088000, p 1111951124458769404000, p 1122786207749324007000,
  p 1133545489986163592000, p 1144228784419161036000, p 1154835907851344410000, p 1165366680636030409000,
  p 1175820926674377908000, p 1186198473412256058000, p 1196499151837448019000, p 1206722796476234031000,
  p 1216869245390409851000, p 1226938340173595605000, p 1236929925947745792000, p 1246843851359446908000,
  p 1256679968576194735000, p 1266438133282188186000, p 1276118204674541799000, p 1285720045458798578000,
  p 1295243521844606738000, p 1304688503541367438000, p 1314054863753402669000, p 1323342479175359467000,
  p 1332551229987350482000, p 1341680999849717200000, p 1350731675898045361000, p 1359703148737965878000,
  p 1368595312439533497000, p 1377408064531886890000, p 1386141305997600219000, p 1394794941266679788000,
  p 1403368878210943344000, p 1411863028137770879000, p 1420277305784052158000, p 1428611629309903215000,
  p 1436865920292337114000, p 1445040103718500175000, p 1453134107979307583000, p 1461147864862448800000,
  p 1469081309545711042000, p 1476934380589726345000, p 1484707019931127752000, p 1492399172875076366000,
  p 1500010788087952086000, p 1507541817589890617000, p 1514992216747244665000, p 1522361944264712453000,
  p 1529650962177716973000, p 1536859235844277645000, p 1543986733936964134000, p 1551033428434859284000,
  p 1557999294615083915000, p 1564884311044529570000, p 1571688459571383315000, p 1578411725316291705000,
  p 1585054096663782879000, p 1591615565253449794000, p 1598096125970853516000, p 1604495776938571776000,
  p 1610814519507071553000, p 1617052358245204730000, p 1623209300931077081000, p 1629285358542355880000,
  p 1635280545246839252000, p 1641194878392567062000, p 1647028378498249652000, p 1652781069243097523000,
  p 1658452977457013110000, p 1664044133110312463000, p 1669554569303669062000, p 1674984322257609125000,
  p 1680333431302315870000, p 1685601938866915823000, p 1690789890468927749000, p 1695897334703604861000,
  p 1700924323233021224000, p 1705870910775203687000, p 1710737155093222733000, p 1715523116983951931000,
  p 1720228860266907850000, p 1724854451773039368000, p 1729399961333226234000, p 1733865461766904901000,
  p 1738251028870519226000, p 1742556741405715379000, p 1746782681087769249000, p 1750928932573648788000,
  p 1754995583450096047000, p 1758982724221663890000, p 1762890448298634134000, p 1766718851984692578000,
  p 1770468034464832742000, p 1774138097792847941000, p 1777729146879045919000, p 1781241289477537427000,
  p 1784674636173838201000, p 1788029300372015870000, p 1791305398281974727000, p 1794503048906588655000,
  p 1797622374028855880000, p 1800663498198728450000, p 1803626548720206846000, p 1806511655638036901000,
  p 1809318951724489949000, p 1812048572466118616000, p 1814700656050261467000, p 1817275343351633842000,
  p 1819772777918817677000, p 1822193105960568159000, p 1824536476332133298000, p 1826803040521572015000,
  p 1828992952635823200000, p 1831106369386872188000, p 1833143450077816848000, p 1835104356588684232000,
  p 1836989253362483545000, p 1838798307390927067000, p 1840531688200234525000, p 1842189567836822466000,
  p 1843772120852997025000, p 1845279524292365900000, p 1846711957675503166000, p 1848069602985278878000,
  p 1849352644652328219000, p 1850561269540274585000, p 1851695666931093707000, p 1852756028510253302000,
  p 1853742548351831129000, p 1854655422903636853000, p 1855494850972260857000, p 1856261033707967834000,
  p 1856954174589718065000, p 1857574479409932049000, p 1858122156259344499000, p 1858597415511761980000,
  p 1859000469808722935000, p 1859331534044194970000, p 1859590825349184058000, p 1859778563076203977000,
  p 1859894968783864971000, p 1859940266221290034000, p 1859914681312496259000, p 1859818442140791858000,
  p 1859651778933095039000, p 1859414924044130277000, p 1859108111940732161000, p 1858731579185979827000,
  p 1858285564423347280000, p 1857770308360766894000, p 1857186053754750718000, p 1856533045394311251000,
  p 1855811530085010328000, p 1855021756632828017000, p 1854163975828136325000]

/-- src/mid_qual_coeffs.h:21633-22123 -/
def row44 : List ℤ := [
  p 1853238440429458194000, p 1852245405147374932000, p 1851185126628259792000, p 1850057863438030609000,
  p 1848863876045888253000, p 1847603426807989428000, p 1846276779951066965000, p 1844884201556096273000,
  p 1843425959541840666000, p 1841902323648411720000, p 1840313565420814182000, p 1838659958192409762000,
  p 1836941777068429433000, p 1835159298909378355000, p 1833312802314450549000, p 1831402567604927263000,
  p 1829428876807545267000, p 1827392013637822165000, p 1825292263483368362000, p 1823129913387220843000,
  p 1820905252031041216000, p 1818618569718422388000, p 1816270158358087878000, p 1813860311447118657000,
  p 1811389324054116464000, p 1808857492802424507000, p 1806265115853215178000, p 1803612492888676027000,
  p 1800899925095107009000, p 1798127715146042289000, p 1795296167185323141000, p 1792405586810187567000,
  p 1789456281054346580000, p 1786448558371005430000, p 1783382728615927176000, p 1780259103030455397000,
  p 1777077994224539015000, p 1773839716159736579000, p 1770544584132213137000, p 1767192914755772896000,
  p 1763785025944788119000, p 1760321236897220350000, p 1756801868077587220000, p 1753227241199924585000,
  p 1749597679210760532000, p 1745913506272093195000, p 1742175047744322612000, p 1738382630169228121000,
  p 1734536581252920761000, p 1730637229848794615000, p 1726684905940503992000, p 1722679940624890628000,
  p 1718622666094993477000, p 1714513415622949023000, p 1710352523543003818000, p 1706140325234456090000,
  p 1701877157104647321000, p 1697563356571941752000, p 1693199262048693400000, p 1688785212924266224000,
  p 1684321549548012362000, p 1679808613212269424000, p 1675246746135400994000, p 1670636291444820386000,
  p 1665977593160000232000, p 1661270996175566966000, p 1656516846244315702000, p 1651715489960264064000,
  p 1646867274741803649000, p 1641972548814752373000, p 1637031661195450873000, p 1632044961673928574000,
  p 1627012800797031641000, p 1621935529851539068000, p 1616813500847410698000, p 1611647066500915598000,
  p 1606436580217884097000, p 1601182396076924254000, p 1595884868812653995000, p 1590544353798986395000,
  p 1585161207032436781000, p 1579735785115390021000, p 1574268445239487023000, p 1568759545168931633000,
  p 1563209443223917578000, p 1557618498263994651000, p 1551987069671508369000, p 1546315517335077958000,
  p 1540604201633058671000, p 1534853483417025704000, p 1529063723995368018000, p 1523235285116787496000,
  p 1517368528953922624000, p 1511463818086986567000, p 1505521515487367128000, p 1499541984501366256000,
  p 1493525588833851676000, p 1487472692532070088000, p 1481383659969318915000, p 1475258855828897779000,
  p 1469098645087807142000, p 1462903393000733666000, p 1456673465083877811000, p 1450409227098982183000,
  p 1444111045037209321000, p 1437779285103261100000, p 1431414313699396487000, p 1425016497409481491000,
  p 1418586202983189668000, p 1412123797320145874000, p 1405629647454077433000, p 1399104120537141064000,
  p 1392547583824214865000, p 1385960404657140959000, p 1379342950449197264000, p 1372695588669447288000,
  p 1366018686827180133000, p 1359312612456507625000, p 1352577733100782509000, p 1345814416297297854000,
  p 1339023029561846706000, p 1332203940373416410000, p 1325357516158880610000, p 1318484124277866368000,
  p 1311584132007448916000, p 1304657906527129102000, p 1297705814903630207000, p 1290728224075977460000,
  p 1283725500840376806000, p 1276698011835373408000, p 1269646123526945346000, p 1262570202193635226000,
  p 1255470613911754846000, p 1248347724540703357000, p 1241201899708171931000, p 1234033504795612699000,
  p 1226842904923644581000, p 1219630464937454044000, p 1212396549392398077000, p 1205141522539582188000,
  p 1197865748311391811000, p 1190569590307297301000, p 1183253411779588210000, p 1175917575619095695000,
  p 1168562444341149138000, p 1161188380071437472000, p 1153795744531934032000, p 1146384899027068323000,
  p 1138956204429668021000, p 1131510021167209937000, p 1124046709207991782000, p 1116566628047375501000,
  p 1109070136694115953000, p 1101557593656832310000, p 1094029356930335888000, p 1086485783982252532000,
  p 1078927231739488299000, p 1071354056574987581000, p 1063766614294275447000, p 1056165260122355734000,
  p 1048550348690486747000, p 1040922234023065379000, p 1033281269524540025000, p 1025627807966532718000,
  p 1017962201474750990000, p 1010284801516361359000, p 1002595958886949474000, p 994896023698015573600,
  p 987185345364198481000, p 979464272590748619400, p 971733153360886681400, p 963992334923550027000,
  p 956242163780793067900, p 948482985675643039000, p 940715145579757140100, p 932938987681292918100,
  p 925154855372707392500, p 917363091238778210200, p 909564037044683032400, p 901758033724028630400,
  p 893945421367024293400, p 886126539208765457400, p 878301725617452641400, p 870471318082834000700,
  p 862635653204714689300, p 854795066681408518800, p 846949893298373317400, p 839100466916807325200,
  p 831247120462447713200, p 823390185914452004600, p 815529994294194900200, p 807666875654260131900,
  p 799801159067524431500, p 791933172616156796400, p 784063243380878534900, p 776191697430290122400,
  p 768318859810107317500, p 760445054532643660700, p 752570604566164328400, p 744695831824686586100,
  p 736821057157346771600, p 728946600338348767300, p 721072780056631256600, p 713199913905797878800,
  p 705328318373932610800, p 697458308833863123300, p 689590199532982515300, p 681724303583668524400,
  p 673860932953439839600, p 666000398455193940000, p 658143009737813606200, p 650289075276558389300,
  p 642438902363550420300, p 634592797098598501200, p 626751064379841991400, p 618914007894456632600,
  p 611081930109735291900, p 603255132263960017200, p 595433914357342807800, p 587618575143393078700,
  p 579809412119845407600, p 572006721520185606000, p 564210798304882763600, p 556421936152901130600,
  p 548640427453096063700, p 540866563296058792000, p 533100633465531632900, p 525342926430415600800,
  p 517593729336489071500, p 509853327998405544700, p 502122006891611573200, p 494400049144503343400,
  p 486687736530680559600, p 478985349461094341900, p 471293166976428642000, p 463611466739556249700,
  p 455940525027944136700, p 448280616726307193300, p 440632015319343173100, p 432994992884392570700,
  p 425369820084328838800, p 417756766160384972000, p 410156098925216200900, p 402568084756050248900,
  p 394992988587751349400, p 387431073906108939500, p 379882602741192474600, p 372347835660671303000,
  p 364827031763379174300, p 357320448672959269100, p 349828342531428336200, p 342350967992988852800,
  p 334888578217732869500, p 327441424865776677800, p 320009758090999807200, p 312593826535353758000,
  p 305193877322894124600, p 297810156054091287100, p 290442906800029506100, p 283092372097053568700,
  p 275758792940995570400, p 268442408781989962500, p 261143457519037505300, p 253862175494652603300,
  p 246598797489890056400, p 239353556719164712400, p 232126684825142852900, p 224918411874023928100,
  p 217728966350604949000, p 210558575153428603200, p 203407463590310920900, p 196275855373654430200,
  p 189163972615851652700, p 182072035825087553100, p 175000263900745311300, p 167948874129379978200,
  p 160918082180417427200, p 153908102102131133500, p 146919146317507356000, p 139951425620553000000,
  p 133005149172193013600, p 126080524496743553500, p 119177757478108027100, p 112297052356250986300,
  p 105438611723592295200, p 98602636521648075490, p 91789326037747765470, p 84998877901678876980,
  p 78231488082539341520, p 71487350885672521590, p 64766658949556667430, p 58069603242935553260,
  p 51396373062032149090, p 44747156027681612800, p 38122138082676807920, p 31521503489193078710,
  p 24945434826168592220, p 18394112986924109620, p 11867717176863170950, p 5366424911096248732,
  m 1109587987697465870, m 7560147391483507433, m 13985080868848594990, m 20384217686897294320,
  m 26757388813223908980, m 33104426917679981660, m 39425166374060910460, m 45719443261837371940,
  m 51987095367651647850, m 58227962186735267050, m 64441884924401007810, m 70628706497301310770,
  m 76788271534793074050, m 82920426379884192690, m 89025019090562096750, m 95101899440585396280,
  m 101150918920532018300, m 107171930738587066800, m 113164789821432604100, m 119129352814732114000,
  m 125065478083981862900, m 130973025714840355600, m 136851857513678628600, m 142701837008051253900,
  m 148522829446823777300, m 154314701800494352900, m 160077322761430621100, m 165810562743772193900,
  m 171514293883519619900, m 177188390038546057400, m 182832726788271749200, m 188447181433524870700,
  m 194031632996330063100, m 199585962219324562800, m 205110051565541758300, m 210603785217683323600,
  m 216067049077634663300, m 221499730765734345900, m 226901719620138856000, m 232272906695807901400,
  m 237613184763829910700, m 242922448310261438900, m 248200593535199666400, m 253447518351613202600,
  m 258663122384240307600, m 263847306968280623200, m 268999975148004768800, m 274121031675442021900,
  m 279210383008880911900, m 284267937311299032100, m 289293604448833086500, m 294287295989038713800,
  m 299248925199089642500, m 304178407044027137900, m 309075658184819662000, m 313940596976479072100,
  m 318773143465975754700, m 323573219390087321200, m 328340748173308024100, m 333075654925592261800,
  m 337777866440015020200, m 342447311190485625400, m 347083919329253125300, m 351687622684351532300,
  m 356258354757101712200, m 360796050719428723800, m 365300647411248670300, m 369772083337527218100,
  m 374210298665644530300, m 378615235222317890200, m 382986836490736559200, m 387325047607480589100,
  m 391629815359531377300, m 395901088180931234500, m 400138816149765140900, m 404342950984702152100,
  m 408513446041722887400, m 412650256310779837500, m 416753338412179898700, m 420822650593129484300,
  m 424858152724198479700, m 428859806295529028800, m 432827574413187521800, m 436761421795454961500,
  m 440661314768847920300, m 444527221264298527500, m 448359110813252453000, m 452156954543500552200,
  m 455920725175283838400, m 459650397016999925500, m 463345945961101905800, m 467007349479802517300,
  m 470634586620863754100, m 474227638003064181600, m 477786485811963983300, m 481311113795271955700,
  m 484801507258400490600, m 488257653059833205200, m 491679539606543235200, m 495067156849262343300,
  m 498420496277669137700, m 501739550915656910000, m 505024315316448902700, m 508274785557663812300,
  m 511490959236407657400, m 514672835464222603300, m 517820414861959024600, m 520933699554724012500,
  m 524012693166663016600, m 527057400815792520300, m 530067829108683850200, m 533043986135093517000,
  m 535985881462655283100, m 538893526131419341300, m 541766932648365553100, m 544606114981954909400,
  m 547411088556419998500, m 550181870246298891500, m 552918478370628201400, m 555620932687316561200,
  m 558289254387325507500, m 560923466088947031600, m 563523591831813998000, m 566089657071149743800,
  m 568621688671687228500, m 571119714901747956600, m 573583765427240219800, m 576013871305484544100,
  m 578410064979142899000, m 580772380270102060900, m 583100852373161523400, m 585395517849830886900,
  m 587656414622099084200, m 589883581965978930600, m 592077060505192917000, m 594236892204804792400,
  m 596363120364642988500, m 598455789612933579000, m 600514945899660388000, m 602540636490033413600,
  m 604532909957856771100, m 606491816178932530100, m 608417406324260840100, m 610309732853434343400,
  m 612168849507760162500, m 613994811303533504800, m 615787674525145673800, m 617547496718269900500,
  m 619274336682914402600, m 620968254466449397800, m 622629311356670221100, m 624257569874764834500,
  m 625853093768264606400, m 627415948003985139200, m 628946198760896157900, m 630443913422943647000,
  m 631909160571911268100, m 633342009980179605300, m 634742532603537713900, m 636110800573860308600,
  m 637446887191794587500, m 638750866919458701600, m 640022815373069286100, m 641262809315532675200,
  m 642470926649060574500, m 643647246407706747900, m 644791848749843882800, m 645904814950710970500,
  m 646986227394852584400, m 648036169568605486100, m 649054726052433082700, m 650041982513403880500,
  m 650998025697485920500, m 651922943421911622900, m 652816824567484081400, m 653679759070906544300,
  m 654511837916969806400, m 655313153130881054900, m 656083797770420450300, m 656823865918150011300,
  m 657533452673634358600, m 658212654145528368100, m 658861567443740528300, m 659480290671573321100,
  m 660068922917752959900, m 660627564248543936000, m 661156315699807026200, m 661655279268989643200,
  m 662124557907165314200, m 662564255511055794900, m 662974476914944552400]

/-- src/mid_qual_coeffs.h:22124-22466 -/
def row45 : List ℤ := [
  m 663355327882706925900, m 663706915099703703600, m 664029346164722875300, m 664322729581885914700,
  m 664587174752574072800, m 664822791967247522300, m 665029692397373768900, m 665207988087232925000,
  m 665357791945765335200, m 665479217738391355900, m 665572380078841404300, m 665637394420934234000,
  m 665674377050345044400, m 665683445076397837700, m 665664716423830353100, m 665618309824514530900,
  m 665544344809229388000, m 665442941699369305900, m 665314221598649355200, m 665158306384833171600,
  m 664975318701412762800, m 664765381949334797000, m 664528620278643775500, m 664265158580159828500,
  m 663975122477159050900, m 663658638317024934700, m 663315833162891858900, m 662946834785322038100,
  m 662551771653910685000, m 662130772928924736200, m 661683968452944331200, m 661211488742475492100,
  m 660713464979590967200, m 660190029003506911900, m 659641313302249672600, m 659067451004206845000,
  m 658468575869770446700, m 657844822282925562900, m 657196325242870437000, m 656523220355587223100,
  m 655825643825470440900, m 655103732446910750900, m 654357623595884764400, m 653587455221576722600,
  m 652793365837952107100, m 651975494515367037500, m 651133980872174916100, m 650268965066323013700,
  m 649380587786943127000, m 648468990245981516000, m 647534314169785538300, m 646576701790724268900,
  m 645596295838810709900, m 644593239533301023100, m 643567676574341091200, m 642519751134576656500,
  m 641449607850787811600, m 640357391815529419800, m 639243248568780746400, m 638107324089578573200,
  m 636949764787688323600, m 635770717495263540700, m 634570329458504307200, m 633348748329343934300,
  m 632106122157134592400, m 630842599380334317900, m 629558328818210007900, m 628253459662559367200,
  m 626928141469409667600, m 625582524150761294500, m 624216757966326105300, m 622830993515273516100,
  m 621425381727993530800, m 620000073857861568500, m 618555221473040137600, m 617090976448248004900,
  m 615607490956583575000, m 614104917461339269600, m 612583408707833377100, m 611043117715256724800,
  m 609484197768525387500, m 607906802410168758000, m 606311085432193160800, m 604697200867999146000,
  m 603065302984291901000, m 601415546273012626500, m 599748085443282724000, m 598063075413375617200,
  m 596360671302677244600, m 594641028423696315700, m 592904302274069272700, m 591150648528590451700,
  m 589380223031253678500, m 587593181787321605400, m 585789680955409446700, m 583969876839574856100,
  m 582133925881445178700, m 580281984652354867700, m 578414209845493065400, m 576530758268096606700,
  m 574631786833624810800, m 572717452554006588600, m 570787912531848375000, m 568843323952701353700,
  m 566883844077349433100, m 564909630234104317800, m 562920839811115402100, m 560917630248743932100,
  m 558900159031902016600, m 556868583682445318000, m 554823061751600684000, m 552763750812392084400,
  m 550690808452089842300, m 548604392264712168500, m 546504659843518861900, m 544391768773545348900,
  m 542265876624158111200, m 540127140941639441600, m 537975719241775587900, m 535811769002517001100,
  m 533635447656597713200, m 531446912584260595300, m 529246321105929251800, m 527033830474964512100,
  m 524809597870410546700, m 522573780389791381100, m 520326535041932715300, m 518068018739806083300,
  m 515798388293383283500, m 513517800402555500500, m 511226411650041733900, m 508924378494354083500,
  m 506611857262794057600, m 504289004144446551500, m 501955975183246459600, m 499612926271017970100,
  m 497260013140597081200, m 494897391358972645800, m 492525216320433451500, m 490143643239764957900,
  m 487752827145476526900, m 485352922873050676100, m 482944085058220178200, m 480526468130310170400,
  m 478100226305565969900, m 475665513580543252500, m 473222483725495530500, m 470771290277870687400,
  m 468312086535722331800, m 465845025551272611500, m 463370260124427859100, m 460887942796365916700,
  m 458398225843119438500, m 455901261269258771600, m 453397200801528515200, m 450886195882584664600,
  m 448368397664729691600, m 445843957003668216500, m 443313024452358185300, m 440775750254838116200,
  m 438232284340086270200, m 435682776315987446700, m 433127375463248799000, m 430566230729377641800,
  m 427999490722741473900, m 425427303706607195400, m 422849817593210553800, m 420267179937947191800,
  m 417679537933465969200, m 415087038403933173100, m 412489827799240083500, m 409888052189294712000,
  m 407281857258305282500, m 404671388299179014000, m 402056790207862035000, m 399438207477799575600,
  m 396815784194379802600, m 394189664029446104600, m 391559990235812235800, m 388926905641854011000,
  m 386290552646134722400, m 383651073212046703300, m 381008608862493391100, m 378363300674636398700,
  m 375715289274638352200, m 373064714832484290100, m 370411717056841708500, m 367756435189931247300,
  m 365099008002443857200, m 362439573788521917500, m 359778270360735801800, m 357115235045141863900,
  m 354450604676381664200, m 351784515592776113500, m 349117103631514061300, m 346448504123814731600,
  m 343778851890195562100, m 341108281235769423700, m 338436925945541629200, m 335764919279781798400,
  m 333092393969433362600, m 330419482211542286800, m 327746315664744184300, m 325073025444817869900,
  m 322399742120223084200, m 319726595707726628000, m 317053715668014201300, m 314381230901450051300,
  m 311709269743725816500, m 309037959961703395200, m 306367428749191956900, m 303697802722821938600,
  m 301029207917906865700, m 298361769784442232700, m 295695613183024181300, m 293030862380921967000,
  m 290367641048124009400, m 287706072253416023900, m 285046278460582873100, m 282388381524572460200,
  m 279732502687700121600, m 277078762575984838700, m 274427281195428010500, m 271778177928353530200,
  m 269131571529862263900, m 266487580124248889500, m 263846321201459605300, m 261207911613692245000,
  m 258572467571883897100, m 255940104642396729800, m 253310937743636053000, m 250685081142768383100,
  m 248062648452426326300, m 245443752627556663100, m 242828505962180182200, m 240217020086317110200,
  m 237609405962869183200, m 235005773884592747800, m 232406233471069162900, m 229810893665764986100,
  m 227219862733132977500, m 224633248255717814200, m 222051157131325941600, m 219473695570253446300,
  m 216900969092512684900, m 214333082525149386700, m 211770139999601154700, m 209212244949060017200,
  m 206659500105908935000, m 204112007499160665400, m 201569868452034983100, m 199033183579439074400,
  m 196502052785632347800, m 193976575261828641300, m 191456849483905343400, m 188942973210084110500,
  m 186435043478772865100, m 183933156606301333200, m 181437408184842901100, m 178947893080284407600,
  m 176464705430137545700, m 173987938641584493200, m 171517685389467982400, m 169054037614337142700,
  m 166597086520614388700, m 164146922574721412600, m 161703635503245781800, m 159267314291242161000,
  m 156838047180477789500, m 154415921667733041900, m 152001024503232908300, m 149593441688979504200,
  m 147193258477269657000, m 144800559369148673700, m 142415428112969034800, m 140037947702923307100,
  m 137668200377733942300, m 135306267619238335100, m 132952230151157634000, m 130606167937804884300,
  m 128268160182889175700, m 125938285328320453100, m 123616621053092808700, m 121303244272219074100,
  m 118998231135655154200, m 116701657027304565200, m 114413596564063140100, m 112134123594872284000,
  m 109863311199851096700, m 107601231689479051300, m 105347956603767940800, m 103103556711522457800,
  m 100868102009595943400, m 98641661722231541540, m 96424304300448735330, m 94216097421415907240,
  m 92017107987908674870, m 89827402127804450480, m 87647045193581421020, m 85476101761903899020,
  m 83314635633247126690, m 81162709831519300720, m 79020386603754019910, m 76887727419848763730,
  m 74764792972303741490, m 72651643176046582980, m 70548337168295608840, m 68454933308420189210,
  m 66371489177880154430, m 64298061580155769240, m 62234706540813285150, m 60181479307474725250,
  m 58138434349961793710, m 56105625360378772580, m 54083105253290524400, m 52070926165880708700,
  m 50069139458250996410, m 48077795713622716580, m 46096944738710457550, m 44126635564044640860,
  m 42166916444332191850, m 40217834858935748610, m 38279437512307574360, m 36351770334464948180,
  m 34434878481579633680, m 32528806336526121130, m 30633597509467066190, m 28749294838554997100,
  m 26875940390589867070, m 25013575461716387380, m 23162240578242406770, m 21321975497365010610,
  m 19492819208061513510, m 17674809931922079460, m 15867985124070244870, m 14072381474066894580,
  m 12288034906944328610, m 10514980584148328260, m 8753252904642081593, m 7002885505952706649,
  m 5263911265302983461, m 3536362300736567822, p 0]

/-- All rows of the header. -/
def rows : List (List ℤ) := [
  row0, row1, row2, row3, row4, row5, row6, row7, row8, row9, row10, row11, row12, row13, row14, row15, row16, row17,
  row18, row19, row20, row21, row22, row23, row24, row25, row26, row27, row28, row29, row30, row31, row32, row33, row34,
  row35, row36, row37, row38, row39, row40, row41, row42, row43, row44, row45]

/-- `slow_mid_qual_coeffs`, src/mid_qual_coeffs.h:23-22466 -/
def table : CoeffTable := ofRows 491 22438 rows

end Verif.MidQual
