/-! # The numbers of `rfun_coeffs`, specfunc_scaled_mod_sph_bessel.c:197-end

Generated from the source text. Row `n` is one natural number whose digits in base `10^20`, the least significant first, are
the 50 literals of the row: the literal `d.dddddddddddddddde+EE` is the digit `ddddddddddddddddd0EE`. -/

namespace Libgrpp

/-- All rows. -/
def rfunRows : List Nat := [
  10000000000000000000,
  1000000000000000000010000000000000000000,
  300000000000000000003000000000000000000010000000000000000000,
  15000000000000000001150000000000000000016000000000000000000010000000000000000000,
  1050000000000000000210500000000000000002450000000000000000011000000000000000000110000000000000000000,
  945000000000000000029450000000000000000242000000000000000002105000000000000000021500000000000000000110000000000000000000,
  10395000000000000004103950000000000000044725000000000000000312600000000000000003210000000000000000022100000000000000000110000000000000000000,
  1351350000000000000513513500000000000005623700000000000000041732500000000000000431500000000000000003378000000000000000022800000000000000000110000000000000000000,
  202702500000000000062027025000000000000694594500000000000005270270000000000000055197500000000000000469300000000000000003630000000000000000023600000000000000000110000000000000000000,
  34459425000000000007344594250000000000071621620000000000000747297250000000000006945945000000000000051351350000000000000513860000000000000004990000000000000000024500000000000000000110000000000000000000,
  6547290750000000000865472907500000000008310134825000000000089189180000000000000718918900000000000007283783500000000000063153150000000000000525740000000000000004148500000000000000035500000000000000000110000000000000000000,
  137493105750000000101374931057500000001065472907500000000009196418722500000000094135131000000000000864324260000000000007756756000000000000066756750000000000000545045000000000000004214500000000000000036600000000000000000110000000000000000000,
  31623414322500000011316234143225000000111512424163250000001145831035250000000010982093612500000000091571349780000000000919297278000000000008183783600000000000071351350000000000000675075000000000000004300300000000000000037800000000000000000110000000000000000000,
  7905853580625000001279058535806250000012379480971870000000121159525191825000001225207069387500000011412479317250000000105237832600000000000952378326000000000008413513100000000000072552550000000000000612012000000000000005409500000000000000039100000000000000000110000000000000000000,
  213458046676875000142134580466768750001410277609654812500014316234143225000000136957151150950000001211595251918250000012151242416325000000111571349780000000001013094581500000000009872972100000000000074594590000000000000618564000000000000005546000000000000000031050000000000000000210000000000000000000,
  61902833536293750015619028335362937500152988412653476250001592498486893312500014205552193096250000143478575575475000001346381007673000000012496939367925000000114321211895000000001030554023500000000009174594420000000000087936110000000000000627846000000000000005714000000000000000031200000000000000000210000000000000000000,
  1918987839625106201719189878396251062017928542503044406240162888798898360375201664748940825318750015110998184271975000151507382749372500001416564645597500000013149081810377500000121104309706500000001167218851700000000009333316620000000000081322685000000000000740698000000000000005918000000000000000031360000000000000000210000000000000000000,
  633265987076285030186332659870762850301830703805434001700018959493919812553090172166599173770281301737554385678684872016517991526602550000155814190604722500001453835098191875000013414116139937500000122650343295600000001114054850810000000010611080470000000000082136645000000000000758140000000000000005116280000000000000041530000000000000000210000000000000000000,
  22164309547669976020221643095476699760201076552178029684702033774185977401868019767595135850042470181343291487737574401818777192839342438017214596489592485000162034966711652875001516150529457562500014107670196383750000136023507490000000001128109701620000000010108114237000000000093357585000000000000781396000000000000005145350000000000000041710000000000000000210000000000000000000,
  8200794532637891902182007945326378919021398957571858059600211255977541034632002128708058080791590020506612789661028020197164221267933729801883156139717087936017804736835971818720166557114959770375001545221482481175000014264281391123750000131305093289500000001254057118500000000010185338692000000000095148297000000000000711191950000000000006179550000000000000041900000000000000000210000000000000000000,
  319830986772877750233198309867728777502315581509612011996023492047671958273470221130379786931168902220095640656554112021287080580807915900203377418597740186801933262455886835174018277187132390293120171967134487931112401611922027199582500015616656579288750000132710578370500000001210039179150000000011308897820000000000097722445500000000000715142050000000000006219450000000000000042100000000000000000210000000000000000000,
  13113070457687988025131130704576879880256396619735457555802420255962495615593024467445288360359800238364810423290648602212057384393932467022143540290403957950211435402904039579502012196233825172898019886998823648937980175543742647805862401629805067998956250015137561852302875000145421156741000000001218070522470000000011501958957500000000091135653750000000000820189400000000000006265650000000000000042310000000000000000210000000000000000000,
  5638620296805835102656386202968058351026275374479611447770268742046971791993002520255962495615594025364607324921080650245297713268084078102363731888939357331022645931306817810750215582122404598364902041467195005587849019266099647094681400181478331372748230101771073623689818750015294775397791875000141048090303260000001331623414322500000011797228932500000000091640388750000000000826565000000000000006318780000000000000042530000000000000000210000000000000000000,
  253737913356262560282537379133562625602812404964652972836028394703420776408440279179149320381591502616609889246404785026243071549947387110252951583106503986102430272647246194728023265549537247322220222009564065655411202113194107501777953020753949000101597290183752687330822430101716245399700530000016609202488769875000141965169318612500001353945824432500000011124013389500000000102331078750000000000834534500000000000006379500000000000000042760000000000000000210000000000000000000,
  11925681927744342030119256819277443420305835972007194039602918607446979459256029434173762854049260287894068415528168802711626922472483349027142370479254898160261475791553251993202513118147140017716024100908824153982440236759442766295474402139582322505333860020202986269258122360199113669231997329901735739879341166000016121840497753975000153583544051587500001389909707387500000011189283594500000000103263510250000000000844401500000000000006448500000000000000043000000000000000000210000000000000000000,
  5843584144594727103158435841445947271031286216366265864180319143022811270662103021398564026378145030390756386568644390295788983504720657402871422523759540579027747445016088215380266723050409259079902552472588560070862024357767649273210440232140490209326900102211265737943825791021521964692378028930192126522820799376901875947243599977744016236513907404775000156370744980600000001314669478573750000012283925391750000000104506752250000000000856511000000000000006526500000000000000043250000000000000000210000000000000000000,
  298022791374331070332980227913743310703314608960361486818033467486731567578170321097162737352479303220114650184795456031299579896369294020303721489395891851202939282388067747316028357112618797702890272823681171888813602619557964826935507025119255883091070150246421470627980700202230578431561812861021128751290786580460204784676346798598101815636197211760125017446748491764575000151106497812420000001423471165718000000012419127959250000000106145571250000000000871253000000000000006614250000000000000043510000000000000000210000000000000000000,
  15795207942839547035157952079428395470357748592575732607903424835232614527592034584358414459472720331075219482605429803316091720147836365032201146501847954560312139856402637814503019641194033873659029157129552270989260281103802639920172602768452876894274268025376114708210298170241834705893708771602379503922060713431021305784315618128630201041370734303224401931272394423520250017822957747987375000151881046281114000001436883260414000000012609640668000000000108283161250000000000889066250000000000006712530000000000000043780000000000000000210000000000000000000,
  8687364368561751203686873643685617512036426470614456667800361368918021712760703632285802398885867035596045582748662140348960162355045248803311264204103485455033120687901108772730321117480565821969703190349492555818833029642802713835865160284047276346373966202722642105434259949026112834412463089450255014862776137309302319875980515178361022701505194653353900202198449327973473501960898873351065754017148132394637727500163135077135190000001457001402458000000012874701828000000000101104421500000000000911044215000000000007822150000000000000044060000000000000000210000000000000000000,
  495179769008019790384951797690080197903824324620231972902038781862793170557630371848039329312227103734222950542819017036516572838382173910356528118287247252103470401275646784093033657078572703318170325363906715945454603138603874092031681030246407706970414990291400980273744834502871160902793388421026323458649060856450251316401478736043602447936188301312512022155890043256300840214512606515313972001911570785936702492018260995171504567520165130126221220000001486741264610000000012123916092300000000111457836380000000000913592880000000000007943950000000000000044350000000000000000210000000000000000000,
  29215606371473171040292156063714731710401436021330123257404046216778440748515039109460791043878070392032843262243449803830800655488537117037391119434775074510364243276886710714203539894056199844321034328539286351659130332389376628012066103215441549636812672031890858632893038850294603220899447313402821348270838016525027889511284917355260253329721387391169402411185110603639586023336394303868859740219025213030627944001921488602453876058018450809841689707520168252811747180000001413011189691500000013173482529220000000111906401420000000000916613520000000000007107880000000000000054650000000000000000210000000000000000000,
  1782151988659863404217821519886598634042876468191144195030412824175282575739604167014328739085347040124785301790020990401897320378093886403924200515026707736038264005618473175310372498818611062976003620744909223919045035152322760035769230349955735950050276203258202764015678539031305437245563327610301442342548493491402961376278659297511027235458869536946970268139318946956190802425313671366131695023706428038124605430211762065401217836602039070186279774648018764416688082547520161306695193303500001519256560743420000013240206578920000000112471261100000000000920173560000000000007122760000000000000054960000000000000000210000000000000000000,
  112275575285571380441122755752855713804455246711648455764043178215198865986330434236262923863609704279076907912120706041120625791730353630411544960879305021804016940360518695416039161336766844718230381349362049974007203799952744442519035035660065293488333260343905711795788954203320786701434170907032997761668840203470304327027645480474102916968735864629310028601728222149975540261927733434805413702555690077005489726023144649550663609690223363943038688597102069646853803076547018127402781347091250172038444501553460001528144204163460000013329171978520000000113177335700000000000924347400000000000007139128000000000000055280000000000000000210000000000000000000,
  72979123935621403045729791239356214030453592818409138284304511601809446175710045276233558242278820445168240767113604104379076907912120706042101670310172726640421120096637496140804110728894995173763040903485894330422150386746810249870035203744978734999133567036269103542729858940351450692952721611603470674784876181083032311800521512563600311247202086050254303045249962305678166028148848560216046600274433786900052451502511933587929747799024289299101327219390226289110898417812102012188199415538397019208940561409229660173136068463928400001540652739347220000013446733399420000000114053842100000000000929216880000000000007157080000000000000055610000000000000000210000000000000000000,
  4889601303686633904748896013036866339047240831108987550610477784439886466283004618562895113881136046348054283385271320455340515459350723404468909876894848052043762527326295449750427342855734696923204162227590972007826040468169963425764210393148511449939349903819029464807325740037103797080767231310365125781766283027903422969305084758852033935401564537690760313464450239028484503011669727120938052029357236544518511810279923237347736439002524952047489472671024566019980857603110221153003664709932302120963702994726040019337519368430294080174762178037817200001558075341924600000013600779399220000000115134866660000000000934871760000000000007176715000000000000055950000000000000000210000000000000000000,
  337382489954377750493373824899543777504916624644432534555049537856143405529720481284432581266936804824131763648045479047371257902277622720464806463913415651204553405154593507234044516824076711360410434405713440818153904233376616975895104041226282148989119380401380501174204176603976117859229302960037380589296146514790361729951346120522003571610186440718767033270227118644221770329299313799497510403029174317802345130029833551937209860850272165069966778859502650988966608922417024108487162997707260232075406596477878002135477035837228687019537530846018616450177143267056725800001582106517893400000013801039198960000000116459993540000000000941410215000000000007198135000000000000056300000000000000000210000000000000000000,
  23954156786760820051239541567867608200511180838714840322005138236682194829480050914355443789400570491721139658897695104926544940012850026048344739480686363960473845171130732520904637383608215455063045320430927561043440442443168362635521704316688308487947554042102697283002754180415719219150274445203928924786507135127038133206253651280180375596901413919335703521483055932215630034753791436218092300322417821587869352703170851914662838170029189443622093150200284612540364007135002610197793321784483025203955866435689660233671873209153169102159128393062047810019844691329457825790171059174080824860001611494912505076000014105943894056000000128074991925000000000948939345000000000007221445000000000000056660000000000000000210000000000000000000,
  1748653445433539805317486534454335398053862349644323389480522794651625122095805266914193840951586051126181051242937280511950624946750721105025407299726585025049284410071566250260482777068038862376404723925509257891243046183519531239506690451262303654028352904478306678289600057042440131212868946410412249559532441281804010485235108836483039446632732830762990371741258217663793203662187793487992616034203523687778884940336102121150336938103116746816193034478030420070640293507000289609459091681531902619987674910697586025376533907265888580236391779290007368402197139502887649968019131072792502076420181553455318543128001615944556055428000014139051360948500000121003256572500000001057575700000000000007246753000000000000057030000000000000000210000000000000000000,
  131149008407515480551311490084075154805564700177481040970054209838413452024790545030372925219772605395018155254151250052147211226450093490521922758876082853905121596204767597270050211727497721541880491832864905649168504814137800925117553047978770833277368960456117317707983556004434678671813965737043178986693233371570428435848246654807304036389933613020737039143914991689912510385223774652991379803617412582176637933035533038229897079520331497793373264521203238590489488296838030910153053969265120281960329654703032602738437836366726128025683339313186242310231095733592572691702215743298743860514020200978281836517200182255015784981960001621923764576213500014181188136993500000121239316942500000001067445820000000000007274170000000000000057410000000000000000210000000000000000000,
  10098473647378693057100984736473786930574983662319485588405616175044370260244056388201064886245870557344344470820867205411402178630498150054149314243970809120531682414016572497105216557090321824573051143974698450648460501116381351622675304977757905088146541047489385416638684470462796488095078197104514565042161865610044693573436279314830423026980841446725004112129977871006912040446893921563412570381514894649367500203747262723050874392035135682458519256630343581679805632550303286828601348667891030192952447441484200293920659309406065102772604802026038244025122024877354686120241851411932277996402225189277990176820020304709007945687350183241585190911567601629896042603927500014234478765521000000121522589386500000001078686790000000000007303810000000000000057800000000000000000210000000000000000000,
  7977794181429167205879777941814291672058393840472247769010581279139995334634505830732584303494464057582301597329368780569058024847345736305511890843428948071055134382819573728200541327237724184969905311589963225277201052903114017554067680506326160992528493404940075228006967830048230710267843951250471211811507867218704658260168647462440044257030155797628410431042626734276094204238943613164811663040134068176469023760394256132586318215103712460172440685066036336256527634679430348357252879809284103219102292296706936031400747390840005680297696109014760054102713483748947692816026214595473968585930243085686553796660502239815310371569815020457063511918531020184616803150692232801640447587052372500014301472698527000000121860942583500000001091446810000000000007335790000000000000058200000000000000000210000000000000000000,
  646201328695762540606462013286957625406031911176725716667060103711324358579180602494322990902537205947328179827381474058737582023283867080579705026622156146305610999030171776966056108999398098690650559556111614131782805374807944454061944052526816510239872810513357731603726662005019465110746241519049103050586303631560484998722469952277504622275946835794461045913884998391567680433457130750494417204212072520081091615041389436131648116640391160763432632240403831963051043496476036812619941783808670341905453656596516803341143398792907248031816337277637048510291484249595703724702824642713594059285026371965488212215650245076452072375150902262211422455577838020678670063151758130186517839742153740001654315331184614500014385215114784500000122263308547500000001010588578000000000008370230000000000000058610000000000000000210000000000000000000,
  53634710281748292062536347102817482920622649425447652626206286160177159435002061207422648717158360613941030325626008906061526633775595913059811340225612253810589219775291048339605791658584764808051056806595545930310790556341783162105637505444884766672437164053287722863284853590521678865801863331005189539509432710981049437964991790434120481970084738157662404781678471731246364045312644867870799470441106281840158213504336217560243274846041109750182555378330403078546495242028703879907627608741190036191778306260978840354250627387792230103386858286340581957031163267455527409700302814956129782925802844356884469306716026635940995975723530248249234617609621402296144925613165747020998044210517291420189124975639015235201672420441579486000014489327307969500000122739794557500000001012217590000000000008407253000000000000059030000000000000000210000000000000000000,
  4558950373948604906445589503739486049064225265783183342820647330077071838932606317662836317684177063336024690921796530625254707100834677706169437200975315386060791056719971947500597888029971230245105869660524421254113057549951508588848290563910766283298477005525204522823753176054147971758260781850537946631462153099805139173535376811057050177762261373764450497442542344151169304728802408452597401046103172806397363830453424205695727803604310536017525316319042300620065260384110407952911779375241103819497461136532850037442565322140720390359288407995545983603317992073599120551032320904998795253560305254584775594795502878697698251995782026107315043070903330251324877074949423902314704518034954760021145429299246805320191267357727641005001795908152362022000014618097652172000000123301803697500000001014050228500000000008446985000000000000059460000000000000000210000000000000000000,
  396628682533528650663966286825335286506619603486607978999066638253052352804690651539316185086175906529320308287355731064459233744259788600636080446788108698906269437200975315394061694372009753153860606152663377559591305948762367094877882058348302622106270560572256211317287582605613322390635412394055720129223535805030533575984157968895005216360711833844617051691297683120195130492702818009191740104897928188738831166046329170382315398880451027261708718341104429775701701980905042801653507361024350402004133768402560903946493945787116795037999869801873479420351990373141902710803436604563529245253032620416331004156920309661655877706558502813772097194099262027178858405118172230252104216530802026202322266841595788638021210064543356496570191746898489451114901712619493731845000015776584229652000000123962164437000000001016106359500000000008489555000000000000059900000000000000000210000000000000000000,
  35299952745484048068352999527454840480681745166203147526006856850111163139101067137224406255853010672616837514646499106641048431602298024065544520011050892130646232457957811416706362493480877783854062555497607802523080614418730971156433606031695538611670622059206302322324483360581224800429384687705766611953177061970055333059765885309850541535569667833701805365442847335378469051258327028955441320509459863032171090904832176404871330240047101743572715668740462992458021049080604481883179680447479042208429911913866310414933252352990919003910848587350327252038221399741843413320364186646953657426703473209127058490507032118079237191113720311751175127834313802923788167880716906027294590314312283670253306625976974612502333400262393682954021300903264807954550192390492669775209901716502414880105000015970730287065000000124735269693000000001018407268000000000008535095000000000000051035000000000000000310000000000000000000,
  3212295699839048107032122956998390481070158849787354678200705177326402670993206912507024455890602069238770466885184210683750800437659982306749844524088504742066571746011603436750655747711227759417106451244654319782758063409048238472767010622945820647437622806119261135002476763060114939865295069290596287308870841397305731640677759104434056146938132008224920556312897523316330005325143830818329623052929977304239588770503198334644210225804910237947004514167048305230718147006220468478631059639062704421944692154359926043529091314858276010411187634825720035904024796771086462288038480971852970173710368652403704225347803414405666937315875033221398569733338270313130888864915894202940579815796517076027479761369022861960255143640408627174902349649038693312506021427599376306040670193248618243540670101721453139344136500015120749377171500000135637225825000000001020975724000000000008583740000000000000051081000000000000000310000000000000000000,
  298743500085031500722987435000850315007214776560219259621072481844354975857260711164898440600973507122262503531485273070350196684764936890694661709115377406106853582863395142599067539982344292134710664828077431317910406538666420986745172064279516296289724150631835472864941903406211006362858558150061605349957220698310593065063074535181105814331365808535538057620405446256949730552491933232888025105493032174027819598052323277824807095150511046727701741528505031604097274804605048890256261262101480462340102172460381104557393810249864419043131293029983349990422799424946340084804055578969676553410038102607328633637060371758391720536119203527910979691049507033409251901628291940315525097996910401902968405975199843072027772948872314610960257923986575452674702373167004390144743021603024761457236870194385634628779904601727732106957054500015149499228879000000136686012025000000001023836050000000000008635628000000000000051128000000000000000310000000000000000000,
  28380632508077990074283806325080779900741404094450399648107445807336679704831073110824201644447170732120115161893771907233393755297227907071445250070629705450705127880026915147306951796767948637847068464384816091235860673730787106018385606627066494690721621065178460404554208490641075062678037400506359434359436214007061302674978610349140601424352840519290005962102585170320663057251427470325184860569469346284974495405433225776438506998053108738904707841090523322222705527459805094812291824413815048252832778198436830476300275079701026404514667307063854240044318854501388135660426467636944992609404012227373328841749039215144398747948660373516783441072238403553284597592003606033746282879439826390319629456508900985802911400995866640512028123254009369086610261209450582569092702410693639103175000022844234666040131580195883168404460847401735655566087641500015184266491409000000137901650575000000001027014190000000000008690900000000000000051176000000000000000310000000000000000000,
  2752921353283565207627529213532835652076136227036038774360764446299092932219007510764724119730636075206133015058671740743250843248237116607343411881886396280072500906329458418620715070903582171645307045581155794801306069367286172726704760682673730759313176406717697323451625674066107076242732525090655948680151806949606330460109211059682062144215725102578110616330457068974622605925821601202396487058980567134268221020563472093637823981705511477995496938781054354583384916873120521024352000870966905127685189212728831049700152308857209680471656739002439899504636668267659635603044758653813647633080421465997707531658204126426903646206363039443735322417644140376926997686960469103510030041899671267034134330918299168750321658406398755169903018796236428785709028194611593740663070261829681650553242702415505776699603750022117369209668993910207844224539281130201745605956623727500015226145239456500000139306388455000000001030537780000000000008749700000000000000051225000000000000000310000000000000000000]

end Libgrpp
